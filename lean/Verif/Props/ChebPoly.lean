import Verif.Model.ChebPoly
import Verif.Props.Chebfun
import Verif.Props.Chebyshev
import Verif.Lemmas.Poly

/-! # C136: Chebyshev series as polynomials -/

namespace Verif.ChebPoly
open Polynomial Verif.PolyEval Verif.Spec

/-! ### Specification -/

/-- the coefficients and the domain of what is converted -/
noncomputable def series : Input → List ℝ
  | .function f => Chebfun.coefficients f
  | .coefficients c _ => c

/-- the domain -/
def domain : Input → Option (ℝ × ℝ)
  | .function f => some (f.a, f.b)
  | .coefficients _ d => d

/-- a Chebyshev series with coefficients `c` at `t` -/
noncomputable def chebSum (c : List ℝ) (t : ℝ) : ℝ := ∑ k : Fin c.length, c[k] * (Polynomial.Chebyshev.T ℝ (k : ℤ)).eval t

/-! ### Auxiliary -/

theorem chebSum_eq (c : List ℝ) (t : ℝ) : chebSum c t = (chebSeries c).eval t := by simp [chebSum, chebSeries, eval_finsetSum]

theorem unpack_eq (i : Input) : unpack i = match domain i with | none => .error .typeError | some d => .ok (series i, d) := by
  cases i with
  | function f => rfl
  | coefficients c d => cases d <;> rfl

theorem sum_eq (c : List ℝ) : ((List.range c.length).map fun k => C (c.getD k 0) * Polynomial.Chebyshev.T ℝ (k : ℤ)).sum = chebSeries c := by
  rw [chebSeries, ← List.sum_ofFn]
  congr 1
  refine List.ext_getElem (by simp) fun n h1 h2 => ?_
  simp only [List.length_map, List.length_range] at h1
  simp [List.getElem?_eq_getElem h1]

theorem polyAsc_coef (p : ℝ[X]) : polyAsc (coef p) = p := by
  conv_rhs => rw [p.as_sum_range_C_mul_X_pow]
  have hl : (coef p).length = p.natDegree + 1 := by simp [coef]
  rw [polyAsc, Finset.sum_range]
  refine Fintype.sum_equiv (finCongr hl) _ _ fun i => ?_
  have e : (coef p)[i] = p.coeff i := by
    change ((List.range (p.natDegree + 1)).map p.coeff)[(i : ℕ)]'(by simpa [coef] using i.2) = _
    simp
  rw [e]
  rfl

theorem horner_coef (p : ℝ[X]) (x : ℝ) : horner (coef p).reverse x = p.eval x := by
  rw [horner_eq_eval, polyDesc_reverse, polyAsc_coef]

theorem horner_hom {R S : Type} [CommRing R] [CommRing S] (φ : R →+* S) (l : List R) (x : R) : φ (horner l x) = horner (l.map φ) (φ x) := by
  unfold horner
  have : ∀ a : R, φ (l.foldl (fun tot c => tot * x + c) a) = (l.map φ).foldl (fun tot c => tot * φ x + c) (φ a) := by
    induction l with
    | nil => intro a; rfl
    | cons b l ih => intro a; simp only [List.foldl_cons, List.map_cons]; rw [ih]; simp
  simpa using this 0

theorem horner_C (l : List ℝ) (q : ℝ[X]) : horner (l.map C) q = (polyDesc l).comp q := by
  have := horner_hom (eval₂RingHom C q) (l.map C) X
  induction l using List.reverseRecOn with
  | nil => simp [horner]
  | append_singleton l a ih =>
    rw [polyDesc_append_singleton]
    have e : horner ((l ++ [a]).map C) q = horner (l.map C) q * q + C a := by simp [horner]
    rw [e, ih (horner_hom (eval₂RingHom C q) (l.map C) X)]
    simp [mul_comm]

theorem cheb2poly_ok {c : List ℝ} (hc : c ≠ []) : cheb2poly c = .ok (coef (chebSeries c)) := by
  rw [cheb2poly, if_neg hc, sum_eq]

/-- the variable of a domain, as a polynomial -/
theorem comp_eval (P : ℝ[X]) {a b x : ℝ} (h : b - a ≠ 0) : (P.comp (C (-0.5 * (b + a) * 2.0 / (b - a)) + C (2.0 / (b - a)) * X)).eval x = P.eval ((2 * x - a - b) / (b - a)) := by
  rw [eval_comp]
  congr 1
  simp only [eval_add, eval_mul, eval_C, eval_X]
  field_simp
  norm_num
  ring

/-! ### The property -/

/-- C136: the coefficients of `cheb_to_poly`, evaluated by Horner's rule anywhere, give the Chebyshev series in the variable mapped from the domain to [-1, 1], which is what `chebval` gives;
there are no more of them than coefficients of the series, and the first is not zero unless it is the only one. -/
theorem C136_polynomial (i : Input) {a b : ℝ} (hd : domain i = some (a, b)) (hab : a ≠ b) (hc : series i ≠ []) :
    ∃ p, cheb_to_poly i = .ok p ∧ p.length ≤ (series i).length ∧ (∀ l, p = 0 :: l → l = []) ∧ p ≠ [] ∧
      ∀ x, horner p x = chebSum (series i) ((2 * x - a - b) / (b - a)) ∧ Chebyshev.chebval ((2 * x - a - b) / (b - a)) (series i) = .ok (horner p x) := by
  have hba : b - a ≠ 0 := sub_ne_zero.2 hab.symm
  have hQ := fun x => comp_eval (chebSeries (series i)) (x := x) hba
  set Q := (chebSeries (series i)).comp (C (-0.5 * (b + a) * 2.0 / (b - a)) + C (2.0 / (b - a)) * X) with hQd
  have hval : ∀ x, horner (coef Q).reverse x = chebSum (series i) ((2 * x - a - b) / (b - a)) := fun x => by rw [horner_coef, hQ, chebSum_eq]
  refine ⟨(coef Q).reverse, ?_, ?_, ?_, ?_, fun x => ⟨hval x, ?_⟩⟩
  · simp only [cheb_to_poly, unpack_eq, hd, Py.ok_bind, cheb2poly_ok hc, pdiv_ok hba]
    rw [horner_C, polyDesc_reverse, polyAsc_coef]
    rfl
  · have h1 : Q.natDegree ≤ (chebSeries (series i)).natDegree := by
      rw [hQd, natDegree_comp]
      refine (Nat.mul_le_mul_left _ (natDegree_add_le_of_degree_le (n := 1) (by simp) ((natDegree_C_mul_le _ _).trans natDegree_X_le))).trans (by simp)
    have h2 := Chebfun.chebSeries_degree _ hc
    have hl := List.length_pos_iff.2 hc
    have h3 : (chebSeries (series i)).natDegree < (series i).length := by
      by_cases h0 : chebSeries (series i) = 0
      · rw [h0, natDegree_zero]; exact hl
      · exact (natDegree_lt_iff_degree_lt h0).2 h2
    simp only [List.length_reverse, coef, List.length_map, List.length_range]
    omega
  · intro l hl
    have e : coef Q = l.reverse ++ [0] := by rw [← List.reverse_reverse (coef Q), hl]; simp
    rw [coef, List.range_succ, List.map_append] at e
    have := List.append_inj' e rfl
    have h0 : Q.leadingCoeff = 0 := by simpa using this.2
    rw [leadingCoeff_eq_zero] at h0
    have := this.1
    rw [h0] at this
    simpa using this.symm
  · simp [coef]
  · rw [C12_chebval, if_neg hc, hval, chebSum]
    simp

/-- C136: an interpolant and its polynomial agree everywhere -/
theorem C136_interpolant (f : Chebfun.Fun) (hv : f.values ≠ []) (hab : f.a ≠ f.b) :
    ∃ p, cheb_to_poly (.function f) = .ok p ∧ ∀ x, Chebfun.call f x = .ok (horner p x) := by
  have hn : series (.function f) ≠ [] := by
    have := Chebfun.polyfit_length (List.length_pos_iff.2 hv)
    exact fun h => by
      have h' : Chebfun.polyfit f.values = [] := h
      rw [h'] at this
      exact hv (List.length_eq_zero_iff.1 this.symm)
  obtain ⟨p, h1, -, -, -, h⟩ := C136_polynomial (.function f) (a := f.a) (b := f.b) rfl hab hn
  refine ⟨p, h1, fun x => ?_⟩
  rw [Chebfun.C130_call f hv hab, (h x).1, chebSum_eq]
  rfl

/-- C136: the coefficients of `chebfun_to_poly` are the series' in the mapped variable; the expression it writes, evaluated at `x`, maps `x` itself. -/
theorem C136_mapped (i : Input) {a b : ℝ} (hd : domain i = some (a, b)) (hc : series i ≠ []) :
    ∃ p, chebfun_to_poly i = .ok p ∧ (∀ t, horner p t = chebSum (series i) t) ∧
      (a ≠ b → ∀ x, chebfun_text_value i x = .ok (chebSum (series i) ((2 * x - a - b) / (b - a)))) ∧ (a = b → ∀ x, chebfun_text_value i x = .error .zeroDivisionError) := by
  have hval : ∀ t, horner (coef (chebSeries (series i))).reverse t = chebSum (series i) t := fun t => by rw [horner_coef, chebSum_eq]
  refine ⟨(coef (chebSeries (series i))).reverse, ?_, hval, fun hab x => ?_, fun hab x => ?_⟩
  · simp only [chebfun_to_poly, unpack_eq, hd, Py.ok_bind, cheb2poly_ok hc]; rfl
  · have hba : b - a ≠ 0 := sub_ne_zero.2 hab.symm
    simp only [chebfun_text_value, unpack_eq, hd, Py.ok_bind, cheb2poly_ok hc, pdiv_ok hba, Py.pure_eq, hval]
    congr 2
    field_simp
    norm_num
    ring
  · simp only [chebfun_text_value, unpack_eq, hd, Py.ok_bind, cheb2poly_ok hc, hab, sub_self, pdiv]
    simp

/-- C136: the constant and the factor map the limits to -1 and 1, so that `chebval` with them evaluates the series on its domain -/
theorem C136_range (low high : ℝ) (h : low ≠ high) :
    ∃ constant factor, cheb_range_simplifier low high = .ok (constant, factor) ∧ factor * (low + constant) = -1 ∧ factor * (high + constant) = 1 ∧
      ∀ (c : List ℝ), c ≠ [] → ∀ x, Chebyshev.chebval (factor * (x + constant)) c = .ok (chebSum c ((2 * x - low - high) / (high - low))) := by
  have hba : high - low ≠ 0 := sub_ne_zero.2 h.symm
  refine ⟨0.5 * (-low - high), 2.0 / (high - low), by simp only [cheb_range_simplifier, pdiv_ok hba, Py.ok_bind]; rfl, ?_, ?_, fun c hc x => ?_⟩
  · field_simp; norm_num; ring
  · field_simp; norm_num; ring
  · rw [C12_chebval, if_neg hc, chebSum]
    have : (0:ℝ) + 1 * (2.0 / (high - low) * (x + 0.5 * (-low - high))) = (2 * x - low - high) / (high - low) := by
      field_simp; norm_num; ring
    rw [this]

/-- C136: what is refused: a series without a domain, one without coefficients and, except by `chebfun_to_poly`, a domain without length -/
theorem C136_errors (i : Input) :
    (domain i = none → cheb_to_poly i = .error .typeError ∧ chebfun_to_poly i = .error .typeError) ∧
    (∀ d, domain i = some d → series i = [] → cheb_to_poly i = .error .valueError ∧ chebfun_to_poly i = .error .valueError) ∧
    (∀ a, domain i = some (a, a) → series i ≠ [] → cheb_to_poly i = .error .zeroDivisionError) ∧ (∀ a, cheb_range_simplifier a a = .error .zeroDivisionError) := by
  refine ⟨fun h => ?_, fun d h hs => ?_, fun a h hs => ?_, fun a => ?_⟩
  · simp only [cheb_to_poly, chebfun_to_poly, unpack_eq, h]; exact ⟨rfl, rfl⟩
  · simp only [cheb_to_poly, chebfun_to_poly, unpack_eq, h, hs, Py.ok_bind, cheb2poly, if_true]; exact ⟨rfl, rfl⟩
  · simp only [cheb_to_poly, unpack_eq, h, Py.ok_bind, cheb2poly_ok hs, sub_self, pdiv, if_true]; rfl
  · simp only [cheb_range_simplifier, sub_self, pdiv, if_true]; rfl

/-- a cubic series on [1, 4] -/
example : ∃ p, cheb_to_poly (.coefficients [1, 2, 3, 4] (some (1, 4))) = .ok p ∧ p.length ≤ 4 ∧ horner p 4 = 10 := by
  obtain ⟨p, h1, h2, -, -, h⟩ := C136_polynomial (.coefficients [1, 2, 3, 4] (some (1, 4))) (a := 1) (b := 4) rfl (by norm_num) (by simp [series])
  refine ⟨p, h1, h2, ?_⟩
  rw [(h 4).1, show ((2:ℝ) * 4 - 1 - 4) / (4 - 1) = 1 by norm_num]
  simp only [chebSum, Polynomial.Chebyshev.T_eval_one, mul_one]
  change ∑ k : Fin 4, [(1:ℝ), 2, 3, 4][k] = 10
  simp [Fin.sum_univ_succ]
  norm_num

end Verif.ChebPoly
