import Verif.Model.Fittings
import Verif.Spec.Fittings
import Verif.Lemmas.Friction

/-! # C48, C84: contractions and diffusers -/

namespace Verif.Fittings
open Real
open Verif.Friction
open Verif.Spec.Fittings

variable {X : Charts} {Di1 Di2 D : ℝ} {fd Re l angle : Option ℝ} {rough K : ℝ}

theorem Clamond_nonneg {R e f : ℝ} {fast : Bool} (h : Clamond R e fast = .ok f) : 0 ≤ f := by
  cases fast
  · simp only [Clamond, Bool.false_eq_true, if_false, Py.bind_eq_ok, Py.pure_eq, ok_eq_ok] at h
    obtain ⟨_, -, _, -, _, -, _, -, _, -, _, -, _, -, rfl⟩ := h
    exact mul_nonneg (by norm_num) (mul_self_nonneg _)
  · simp only [Clamond, if_true, Py.bind_eq_ok, pdiv_eq_ok] at h
    obtain ⟨_, -, _, -, _, -, _, -, -, rfl⟩ := h
    exact div_nonneg (by norm_num) (mul_self_nonneg _)

/-! ### equal diameters -/

theorem hooperContraction_eq (h : 0 < D) (hk : hooperContraction D D fd Re rough = .ok K) : K = 0 := by
  unfold hooperContraction at hk
  cases Re with
  | none => simp at hk
  | some R =>
    simp only [pdiv_ok h.ne', div_self h.ne', Py.ok_bind, mul_one, sub_self, mul_zero, Py.pure_eq] at hk
    split_ifs at hk
    · simp only [Py.bind_eq_ok, ok_eq_ok] at hk; obtain ⟨_, -, rfl⟩ := hk; rfl
    · simp only [Py.bind_eq_ok, ok_eq_ok] at hk; obtain ⟨_, -, rfl⟩ := hk; rfl

theorem contraction_conical_Crane_eq (h : 0 < D) (hk : contraction_conical_Crane D D l angle = .ok K) : K = 0 := by
  simp only [contraction_conical_Crane, pdiv_ok h.ne', div_self h.ne', Py.bind_eq_ok, Py.ok_bind, Py.pure_eq, mul_one, sub_self, mul_zero] at hk
  obtain ⟨a, -, hk⟩ := hk
  split_ifs at hk
  · rw [ok_eq_ok] at hk; exact hk
  · simp only [Py.bind_eq_ok, ok_eq_ok] at hk; obtain ⟨_, -, rfl⟩ := hk; rfl

/-- C48: between equal diameters every abrupt or Crane conical contraction has no loss, for every method and cone. -/
theorem C48_contraction_zero (h : 0 < D) (method : String) :
    (contraction_sharp D D fd Re rough method = .ok K → K = 0) ∧ (contraction_conical_Crane D D l angle = .ok K → K = 0) := by
  refine ⟨fun hk => ?_, contraction_conical_Crane_eq h⟩
  unfold contraction_sharp at hk
  split_ifs at hk
  · simp only [pdiv_ok h.ne', div_self h.ne', Py.ok_bind, Py.pure_eq, ok_eq_ok] at hk
    rw [hk]; norm_num
  · simp only [Py.bind_eq_ok] at hk
    obtain ⟨k, hk1, hk2⟩ := hk
    rw [hooperContraction_eq h hk1, change_K_basis, pdiv_ok h.ne'] at hk2
    simpa using hk2.symm
  · exact contraction_conical_Crane_eq h hk

/-- C48: likewise diffusers. -/
theorem C48_diffuser_zero (h : 0 < D) (method : String) :
    (diffuser_sharp D D Re fd rough method = .ok K → K = 0) ∧ (diffuser_conical_Crane D D l angle = .ok K → K = 0) := by
  constructor
  · intro hk
    simp only [diffuser_sharp, pdiv_ok h.ne', div_self h.ne', Py.ok_bind, Py.pure_eq] at hk
    split_ifs at hk
    · rw [ok_eq_ok] at hk; rw [hk]; norm_num
    · unfold hooperExpansion at hk
      cases Re with
      | none => simp at hk
      | some R =>
        dsimp only at hk
        split_ifs at hk
        · rw [ok_eq_ok] at hk; rw [hk]; norm_num
        · simp only [Py.bind_eq_ok, Py.pure_eq, ok_eq_ok] at hk
          obtain ⟨_, -, rfl⟩ := hk; norm_num
  · intro hk
    simp only [diffuser_conical_Crane, pdiv_ok h.ne', div_self h.ne', Py.ok_bind, Py.pure_eq, Py.bind_eq_ok, ok_eq_ok] at hk
    obtain ⟨a, -, k2, h2, rfl⟩ := hk
    split_ifs at h2 <;> simp [pdiv] at h2 <;> rw [← h2] <;> norm_num

example : contraction_sharp 1 1 none none 0 "Rennels" = .ok 0 := by
  simp [contraction_sharp, pdiv]
  norm_num

/-! ### nonnegativity -/

theorem hooperContraction_nonneg (h2 : 0 < Di2) (h12 : Di2 ≤ Di1) (hR : ∀ R, Re = some R → 0 < R) (hf : ∀ f, fd = some f → 0 ≤ f)
    (hk : hooperContraction Di1 Di2 fd Re rough = .ok K) : 0 ≤ K := by
  unfold hooperContraction at hk
  have hb : 1 ≤ Di1 / Di2 := by rwa [one_le_div h2]
  cases Re with
  | none => simp at hk
  | some R =>
    have hR := hR R rfl
    simp only [pdiv_ok h2.ne', Py.ok_bind, Py.pure_eq, pdiv_ok hR.ne'] at hk
    obtain ⟨b, e⟩ : ∃ b, b = Di1 / Di2 := ⟨_, rfl⟩
    rw [← e] at hb hk
    have hb2 : 1 ≤ b * b := by nlinarith
    split_ifs at hk
    · rw [ok_eq_ok] at hk; rw [hk]
      have : 0 ≤ b * b * (b * b) - 1 := by nlinarith
      positivity
    · simp only [Py.bind_eq_ok, ok_eq_ok] at hk
      obtain ⟨f, hf1, rfl⟩ := hk
      have f0 : 0 ≤ f := by
        cases fd with
        | some g => exact hf f (by simpa using hf1)
        | none =>
          simp only [Py.bind_eq_ok] at hf1
          obtain ⟨_, -, hc⟩ := hf1
          exact Clamond_nonneg hc
      have : 0 ≤ b * b - 1 := by linarith
      positivity

theorem contraction_conical_Crane_nonneg (h2 : 0 < Di2) (h12 : Di2 ≤ Di1) (hl : ∀ x, l = some x → 0 ≤ x)
    (ha : ∀ a, angle = some a → 0 ≤ a ∧ a ≤ 360) (hk : contraction_conical_Crane Di1 Di2 l angle = .ok K) : 0 ≤ K := by
  have h1 : 0 < Di1 := by linarith
  have hp := pi_pos
  have hb : 0 ≤ 1 - Di2 / Di1 * (Di2 / Di1) := by
    have : Di2 / Di1 ≤ 1 := by rw [div_le_one h1]; exact h12
    have : 0 ≤ Di2 / Di1 := by positivity
    nlinarith
  simp only [contraction_conical_Crane, pdiv_ok h1.ne', Py.bind_eq_ok, Py.ok_bind, Py.pure_eq] at hk
  obtain ⟨a, hA, hk⟩ := hk
  have hs : 0 ≤ sin (0.5 * a) := by
    have : 0 ≤ a ∧ a ≤ 2 * π := by
      cases l with
      | some l =>
        have hl := hl l rfl
        dsimp only at hA
        split_ifs at hA with h0
        · rw [ok_eq_ok] at hA; rw [hA]; constructor <;> linarith
        · simp only [Py.bind_eq_ok, ok_eq_ok, pdiv_eq_ok] at hA
          obtain ⟨r, ⟨-, rfl⟩, rfl⟩ := hA
          have : 0 ≤ (Di1 - Di2) / (2 * l) := div_nonneg (by linarith) (by positivity)
          have h3 := arctan_nonneg.mpr this
          have h4 := arctan_lt_pi_div_two ((Di1 - Di2) / (2 * l))
          constructor <;> linarith
      | none =>
        cases angle with
        | none => simp at hA
        | some x =>
          obtain ⟨a0, a1⟩ := ha x rfl
          simp only [ok_eq_ok] at hA
          rw [hA]; constructor
          · positivity
          · nlinarith
    exact sin_nonneg_of_nonneg_of_le_pi (by linarith) (by linarith)
  split_ifs at hk
  · rw [ok_eq_ok] at hk; rw [hk]; positivity
  · simp only [Py.bind_eq_ok, ok_eq_ok, psqrt_eq_ok] at hk
    obtain ⟨_, ⟨-, rfl⟩, rfl⟩ := hk; positivity

/-- C48: a contraction never has a negative coefficient. -/
theorem C48_contraction_nonneg (h2 : 0 < Di2) (h12 : Di2 ≤ Di1) :
    (∀ method, (∀ R, Re = some R → 0 < R) → (∀ f, fd = some f → 0 ≤ f) → contraction_sharp Di1 Di2 fd Re rough method = .ok K → 0 ≤ K) ∧
    ((∀ x, l = some x → 0 ≤ x) → (∀ a, angle = some a → 0 ≤ a ∧ a ≤ 360) → contraction_conical_Crane Di1 Di2 l angle = .ok K → 0 ≤ K) := by
  have h1 : 0 < Di1 := by linarith
  refine ⟨fun method hR hf hk => ?_, contraction_conical_Crane_nonneg h2 h12⟩
  unfold contraction_sharp at hk
  split_ifs at hk
  · simp only [pdiv_ok h1.ne', Py.ok_bind, Py.pure_eq, ok_eq_ok] at hk
    have hb : Di2 / Di1 ≤ 1 := by rw [div_le_one h1]; exact h12
    have hb0 : 0 ≤ Di2 / Di1 := by positivity
    have : Di2 / Di1 * (Di2 / Di1) * (Di2 / Di1 * (Di2 / Di1)) * (Di2 / Di1) = (Di2 / Di1) ^ 5 := by ring
    rw [this] at hk
    have h5 : 0 ≤ 1 - (Di2 / Di1) ^ 5 := by linarith [pow_le_one₀ (n := 5) hb0 hb]
    rw [hk]
    have e : ∀ x y : ℝ, 0 ≤ x → 0 ≤ 0.0696 * x * y * y + (y - 1) * (y - 1) := by
      intro x y hx
      have := mul_nonneg hx (mul_self_nonneg y)
      nlinarith [mul_self_nonneg (y - 1)]
    exact e _ _ h5
  · simp only [Py.bind_eq_ok] at hk
    obtain ⟨k, hk1, hk2⟩ := hk
    have := hooperContraction_nonneg h2 h12 hR hf hk1
    simp only [change_K_basis, pdiv_ok h1.ne', Py.ok_bind, Py.pure_eq, ok_eq_ok] at hk2
    rw [hk2]; positivity
  · exact contraction_conical_Crane_nonneg h2 h12 (fun x hx => by rw [← Option.some.inj hx]) (fun a ha => by simp at ha) hk

/-- C48: a sharp diffuser (Rennels) is the Borda–Carnot loss `(1-β²)²`, whatever the other arguments. -/
theorem C48_diffuser_sharp (h2 : 0 < Di2) :
    diffuser_sharp Di1 Di2 Re fd rough "Rennels" = .ok ((1 - (Di1 / Di2) ^ 2) ^ 2) := by
  simp only [diffuser_sharp, pdiv_ok h2.ne', Py.ok_bind, Py.pure_eq, if_true]; congr 1; ring

/-- C48: a diffuser never has a negative coefficient (a cone given by its angle). -/
theorem C48_diffuser_nonneg (h1 : 0 < Di1) (h12 : Di1 ≤ Di2) :
    (∀ method, (∀ f, fd = some f → 0 ≤ f) → diffuser_sharp Di1 Di2 Re fd rough method = .ok K → 0 ≤ K) ∧
    (∀ a, 0 ≤ a → a ≤ 360 → diffuser_conical_Crane Di1 Di2 l (some a) = .ok K → 0 ≤ K) := by
  have h2 : 0 < Di2 := by linarith
  have hb : Di1 / Di2 ≤ 1 := by rw [div_le_one h2]; exact h12
  have hb0 : 0 ≤ Di1 / Di2 := by positivity
  constructor
  · intro method hf hk
    simp only [diffuser_sharp, pdiv_ok h2.ne', Py.ok_bind, Py.pure_eq] at hk
    split_ifs at hk
    · rw [ok_eq_ok] at hk; rw [hk]; exact mul_self_nonneg _
    · unfold hooperExpansion at hk
      cases Re with
      | none => simp at hk
      | some R =>
        dsimp only at hk
        split_ifs at hk
        · rw [ok_eq_ok] at hk; rw [hk]
          have : Di1 / Di2 * (Di1 / Di2) * (Di1 / Di2) * (Di1 / Di2) = (Di1 / Di2) ^ 4 := by ring
          rw [this]
          linarith [pow_le_one₀ (n := 4) hb0 hb]
        · simp only [Py.bind_eq_ok, Py.pure_eq, ok_eq_ok] at hk
          obtain ⟨f, hf1, rfl⟩ := hk
          have f0 : 0 ≤ f := by
            cases fd with
            | some g => exact hf f (by simpa using hf1)
            | none =>
              simp only [Py.bind_eq_ok] at hf1
              obtain ⟨_, -, hc⟩ := hf1
              exact Clamond_nonneg hc
          rw [mul_assoc]
          exact mul_nonneg (by positivity) (mul_self_nonneg _)
  · intro a a0 a1 hk
    have hp := pi_pos
    simp only [diffuser_conical_Crane, pdiv_ok h2.ne', Py.ok_bind, Py.pure_eq, Py.bind_eq_ok, ok_eq_ok] at hk
    obtain ⟨k2, h2, rfl⟩ := hk
    have hs : 0 ≤ sin (0.5 * (a * (π / 180))) := sin_nonneg_of_nonneg_of_le_pi (by positivity) (by nlinarith)
    have : 0 ≤ k2 := by
      split_ifs at h2 <;> rw [pdiv_eq_ok] at h2 <;> rw [h2.2] <;> positivity
    positivity

/-! ### length or angle -/

theorem half_arctan {a : ℝ} (h0 : 0 < a) (h1 : a < 180) : 2 * arctan (tan (0.5 * (a * (π / 180)))) = a * (π / 180) := by
  have hp := pi_pos
  rw [arctan_tan (by nlinarith) (by nlinarith)]; ring

theorem tan_half_pos {a : ℝ} (h0 : 0 < a) (h1 : a < 180) : 0 < tan (0.5 * (a * (π / 180))) := by
  have hp := pi_pos
  exact tan_pos_of_pos_of_lt_pi_div_two (by positivity) (by nlinarith)

/-- C48: a contraction cone given by its length has the same coefficient as the one given by its full angle, for every method of
`contraction_conical` and for Crane's. -/
theorem C48_contraction_length_angle {a L : ℝ} (h12 : Di2 < Di1) (h2 : 0 < Di2) (h0 : 0 < a) (h1 : a < 180)
    (hL : L = (Di1 - Di2) / (2 * tan (0.5 * (a * (π / 180))))) (method : String) :
    contraction_conical X Di1 Di2 fd (some L) none Re rough method = contraction_conical X Di1 Di2 fd none (some a) Re rough method ∧
      contraction_conical_Crane Di1 Di2 (some L) none = contraction_conical_Crane Di1 Di2 none (some a) := by
  have ht := tan_half_pos h0 h1
  have hd : 0 < Di1 - Di2 := by linarith
  have hL0 : 0 < L := by rw [hL]; positivity
  have he : (Di1 - Di2) / (2 * L) = tan (0.5 * (a * (π / 180))) := by
    rw [hL]; field_simp
  have hL2 : 2 * L ≠ 0 := by positivity
  have ht2 : 2 * tan (0.5 * (a * (π / 180))) ≠ 0 := by positivity
  constructor
  · simp only [contraction_conical, hL0.ne', ne_eq, not_false_iff, if_true, pdiv_ok hL2, Py.ok_bind, he, half_arctan h0 h1, Py.pure_eq,
      pdiv_ok ht2, ← hL]
  · simp only [contraction_conical_Crane, hL0.ne', if_false, pdiv_ok hL2, Py.ok_bind, he, half_arctan h0 h1, Py.pure_eq]
    rw [mul_comm (π / 180) a]

/-- C48: likewise for every method of `diffuser_conical`. -/
theorem C48_diffuser_length_angle {a L : ℝ} (h12 : Di1 < Di2) (h0 : 0 < a) (h1 : a < 180)
    (hL : L = (Di2 - Di1) / (2 * tan (0.5 * (a * (π / 180))))) (method : Option String) :
    diffuser_conical X Di1 Di2 (some L) none fd Re rough method = diffuser_conical X Di1 Di2 none (some a) fd Re rough method := by
  have ht := tan_half_pos h0 h1
  have hp := pi_pos
  have hd : 0 < Di2 - Di1 := by linarith
  have hL0 : 0 < L := by rw [hL]; positivity
  have he : 0.5 * (Di2 - Di1) / L = tan (0.5 * (a * (π / 180))) := by
    obtain ⟨t, e⟩ : ∃ t, t = tan (0.5 * (a * (π / 180))) := ⟨_, rfl⟩
    rw [hL, ← e] at *; field_simp; norm_num
  have ht2 : 2 * tan (0.5 * (a * (π / 180))) ≠ 0 := by positivity
  have hdeg : a * (π / 180) * (180 / π) = a := by field_simp
  simp only [diffuser_conical, pdiv_ok hL0.ne', Py.ok_bind, he, half_arctan h0 h1, Py.pure_eq, pdiv_ok ht2, ← hL, hdeg]

/-- C48 (finding): `diffuser_conical_Crane` given the length of a real diffuser (`Di1 < Di2`, `l > 0`) takes the half angle with the
wrong sign and returns a negative coefficient, instead of the positive one of the angle. -/
theorem C48_diffuser_Crane_length_negative {L : ℝ} (h1 : 0 < Di1) (h12 : Di1 < Di2) (hL : 0 < L) :
    ∃ K, diffuser_conical_Crane Di1 Di2 (some L) none = .ok K ∧ K < 0 := by
  have h2 : 0 < Di2 := by linarith
  have hp := pi_pos
  have hb : Di1 / Di2 < 1 := by rw [div_lt_one h2]; exact h12
  have hb0 : 0 < Di1 / Di2 := by positivity
  have hL2 : 2 * L ≠ 0 := by positivity
  have hb4 : Di1 / Di2 * (Di1 / Di2) * (Di1 / Di2 * (Di1 / Di2)) ≠ 0 := by positivity
  have hr : (Di1 - Di2) / (2 * L) < 0 := div_neg_of_neg_of_pos (by linarith) (by positivity)
  have hat : arctan ((Di1 - Di2) / (2 * L)) < 0 := arctan_lt_zero.mpr hr
  have hat2 := neg_pi_div_two_lt_arctan ((Di1 - Di2) / (2 * L))
  have hdeg : 2 * arctan ((Di1 - Di2) / (2 * L)) * (180 / π) < 45 := by
    have : 2 * arctan ((Di1 - Di2) / (2 * L)) * (180 / π) < 0 := mul_neg_of_neg_of_pos (by linarith) (by positivity)
    linarith
  have hs : sin (0.5 * (2 * arctan ((Di1 - Di2) / (2 * L)))) < 0 :=
    sin_neg_of_neg_of_neg_pi_lt (by linarith) (by linarith)
  simp only [diffuser_conical_Crane, pdiv_ok h2.ne', Py.ok_bind, Py.pure_eq, hL.ne', ne_eq, not_false_iff, if_true, pdiv_ok hL2, hdeg,
    pdiv_ok hb4]
  refine ⟨_, rfl, ?_⟩
  have hq : 0 < 1 - Di1 / Di2 * (Di1 / Di2) := by nlinarith
  obtain ⟨q, e⟩ : ∃ q, q = 1 - Di1 / Di2 * (Di1 / Di2) := ⟨_, rfl⟩
  rw [← e] at hq ⊢
  have hn : 2.6 * sin (0.5 * (2 * arctan ((Di1 - Di2) / (2 * L)))) * q ^ 2 < 0 := by
    have : 0 < q ^ 2 := by positivity
    nlinarith
  have := div_neg_of_neg_of_pos hn (show 0 < Di1 / Di2 * (Di1 / Di2) * (Di1 / Di2 * (Di1 / Di2)) by positivity)
  have h5 : 0 < Di1 / Di2 * (Di1 / Di2) := by positivity
  have := mul_neg_of_neg_of_pos (mul_neg_of_neg_of_pos this h5) h5
  linarith

example : (0 : ℝ) < 0.1 ∧ (0.1 : ℝ) < 0.2 ∧ (0.2 - 0.1 : ℝ) / (2 * tan (0.5 * (90 * (π / 180)))) = 0.05 := by
  have : tan (0.5 * (90 * (π / 180))) = 1 := by
    rw [show 0.5 * (90 * (π / 180)) = π / 4 by ring]; exact tan_pi_div_four
  rw [this]; norm_num

/-! ### C84: staged diffusers -/

theorem pyGet_nat' {l : List ℝ} {i : ℕ} (h : i < l.length) : Seq.pyGet l (i : ℤ) = .ok (l.getD i 0) := by
  have : ¬ (i : ℤ) < 0 := by omega
  simp [Seq.pyGet, this, h, List.getD]

/-- C84: a staged diffuser is the sum of its stages: one cone from each diameter to the next, the i-th with the i-th length. -/
theorem C84_staged_sum {DEs ls : List ℝ} {method : Option String} (hn : DEs ≠ []) (hl : ls.length = DEs.length + 1) (k : ℕ → ℝ)
    (hk : ∀ i (s : (ℝ × ℝ) × ℝ), (stages Di1 Di2 DEs ls)[i]? = some s →
      diffuser_conical X s.1.1 s.1.2 (some s.2) none fd none 0 method = .ok (k i)) :
    diffuser_conical_staged X Di1 Di2 DEs ls fd method = .ok (((List.range (DEs.length + 1)).map k).sum) := by
  obtain ⟨n, hnn⟩ : ∃ n, DEs.length = n + 1 := Nat.exists_eq_succ_of_ne_zero (by simpa using hn)
  have st : ∀ i, i < n + 2 → (stages Di1 Di2 DEs ls)[i]? =
      some (((Di1 :: DEs).getD i 0, (DEs ++ [Di2]).getD i 0), ls.getD i 0) := by
    intro i hi
    have a : i < (Di1 :: DEs).length := by simp; omega
    have b : i < (DEs ++ [Di2]).length := by simp; omega
    have c : i < ls.length := by omega
    simp only [stages, List.getElem?_zip_eq_some]
    simp [List.getD_eq_getElem?_getD, List.getElem?_eq_getElem a, List.getElem?_eq_getElem b, List.getElem?_eq_getElem c]
  have s0 := hk 0 _ (st 0 (by omega))
  have sn := hk (n + 1) _ (st (n + 1) (by omega))
  have e1 : (DEs ++ [Di2]).getD (n + 1) 0 = Di2 := by
    rw [← hnn, List.getD_eq_getElem?_getD]; simp
  have e0 : (DEs ++ [Di2]).getD 0 0 = DEs.getD 0 0 := by
    simp [List.getD_eq_getElem?_getD, List.getElem?_append, hnn]
  have sm : ∀ i, i < n → diffuser_conical X (DEs.getD i 0) (DEs.getD (i + 1) 0) (some (ls.getD (i + 1) 0)) none fd none 0 method = .ok (k (i + 1)) := by
    intro i hi
    have := hk (i + 1) _ (st (i + 1) (by omega))
    have e : (DEs ++ [Di2]).getD (i + 1) 0 = DEs.getD (i + 1) 0 := by
      simp only [List.getD_eq_getElem?_getD]; rw [List.getElem?_append_left (by omega)]
    rw [e] at this
    simpa using this
  have g0 : Seq.pyGet DEs 0 = .ok (DEs.getD 0 0) := by simpa using pyGet_nat' (l := DEs) (i := 0) (by omega)
  have g0' : Seq.pyGet ls 0 = .ok (ls.getD 0 0) := by simpa using pyGet_nat' (l := ls) (i := 0) (by omega)
  have gl : Seq.pyGet DEs (-1) = .ok (DEs.getD n 0) := by
    simp [Seq.pyGet, hnn, List.getD]
  have gl' : Seq.pyGet ls (-1) = .ok (ls.getD (n + 1) 0) := by
    have : ¬ (n : ℤ) + 1 < 0 := by omega
    have h3 : ((n : ℤ) + 1).toNat = n + 1 := by omega
    simp [Seq.pyGet, hl, hnn, List.getD, this, h3]
  rw [e0] at s0
  rw [e1] at sn
  simp only [List.getD_cons_zero, List.getD_cons_succ] at s0 sn
  have loop : ∀ m, m ≤ n → ∀ c : ℝ, (List.range m).foldlM (fun (K : ℝ) (i : ℕ) => do
      let a ← Seq.pyGet DEs (i : ℤ)
      let b ← Seq.pyGet DEs ((i : ℤ) + 1)
      let l ← Seq.pyGet ls ((i : ℤ) + 1)
      let k ← diffuser_conical X a b (some l) none fd none 0 method
      return K + k) c = .ok (c + ((List.range m).map fun i => k (i + 1)).sum) := by
    intro m
    induction m with
    | zero => intro _ c; simp
    | succ m ih =>
      intro hm c
      rw [List.range_succ, List.foldlM_append, ih (by omega) c, Py.ok_bind]
      have q1 := pyGet_nat' (l := DEs) (i := m) (by omega)
      have q2 := pyGet_nat' (l := DEs) (i := m + 1) (by omega)
      have q3 := pyGet_nat' (l := ls) (i := m + 1) (by omega)
      push_cast at q2 q3
      simp only [List.foldlM_cons, List.foldlM_nil, q1, q2, q3, Py.ok_bind, sm m (by omega), Py.pure_eq, List.map_append, List.map_cons,
        List.map_nil, List.sum_append, List.sum_cons, List.sum_nil]
      congr 1; ring
  simp only [diffuser_conical_staged, g0, g0', gl, gl', Py.ok_bind, s0, sn]
  rw [show DEs.length - 1 = n by omega, loop n le_rfl, hnn]
  congr 1
  rw [List.range_succ, List.map_append, List.sum_append, List.range_succ_eq_map, List.map_cons, List.map_map, List.sum_cons]
  simp only [List.map_cons, List.map_nil, List.sum_cons, List.sum_nil]
  have : (List.map (k ∘ Nat.succ) (List.range n)) = (List.map (fun i => k (i + 1)) (List.range n)) := rfl
  rw [this]; ring

/-- C84: with no intermediate diameter, `DEs[0]` raises IndexError. -/
theorem C84_staged_empty (ls : List ℝ) (method : Option String) :
    diffuser_conical_staged X Di1 Di2 [] ls fd method = .error .indexError := by
  simp [diffuser_conical_staged, Seq.pyGet]

example : stages 1 10 [2, 3] [1, 2, 3] = [((1, 2), 1), ((2, 3), 2), ((3, 10), 3)] := rfl

end Verif.Fittings
