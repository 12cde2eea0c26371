import Verif.Model.Bracketing
import Verif.Lemmas.ListIdx
import Mathlib.Topology.Order.IntermediateValue
import Mathlib.Topology.Instances.Real.Lemmas

/-! # C25, C26, C35: bracketing root finders and sign-preserving damping -/

namespace Verif
open Verif.Solve Set

section Generic
variable {K : Type _} [Field K] [LinearOrder K] [IsStrictOrderedRing K]

/-! ### bisect -/

theorem bisectLoop_spec (f : K → Py K) (fa xtol rtol : K) (ytol : Option K) (n : ℕ) : ∀ (a dm va vb r : K),
    f a = .ok va → 0 < va * fa → f (a + dm) = .ok vb → vb * fa < 0 → bisectLoop f fa xtol rtol ytol n a dm = .ok r →
    r ∈ uIcc a (a + dm) ∧ ∃ v, f r = .ok v ∧ (v = 0 ∨ ∃ c ∈ uIcc a (a + dm), ∃ vc, f c = .ok vc ∧ v * vc < 0 ∧
      |r - c| < xtol + rtol * |r - c| ∧ ∀ yt ∈ ytol, |v| < yt) := by
  induction n with
  | zero => intro a dm va vb r _ _ _ _ h; simp [bisectLoop] at h
  | succ n ih =>
    intro a dm va vb r ha hva hb hvb h
    rw [bisectLoop] at h
    have hmem : a + dm * (1 / 2) ∈ uIcc a (a + dm) := by
      rw [mem_uIcc]
      rcases le_total 0 dm with hd | hd
      · left; constructor <;> linarith
      · right; constructor <;> linarith
    have hleft : a ∈ uIcc a (a + dm) := left_mem_uIcc
    have hright : a + dm ∈ uIcc a (a + dm) := right_mem_uIcc
    rcases hfm : f (a + dm * (1 / 2)) with e | fm
    · simp only [hfm, Py.error_bind] at h; cases h
    simp only [hfm, Py.ok_bind] at h
    by_cases h0 : fm = 0
    · simp only [h0, if_true] at h
      cases h
      exact ⟨hmem, fm, hfm, Or.inl h0⟩
    have hfa : fa ≠ 0 := by rintro rfl; simp at hva
    -- the bracket kept by this pass
    obtain ⟨c, vc, hc1, hc2, hc3, hc4⟩ : ∃ c vc, f c = .ok vc ∧ c ∈ uIcc a (a + dm) ∧ fm * vc < 0 ∧
        |a + dm * (1 / 2) - c| = |dm * (1 / 2)| := by
      by_cases hs : fm * fa ≥ 0
      · have hpos : 0 < fm * fa := lt_of_le_of_ne hs (mul_ne_zero h0 hfa).symm
        refine ⟨a + dm, vb, hb, hright, ?_, ?_⟩
        · have : (fm * vb) * fa ^ 2 < 0 := by have := mul_neg_of_pos_of_neg hpos hvb; nlinarith
          nlinarith [sq_nonneg fa, this, sq_pos_of_ne_zero hfa]
        · rw [show a + dm * (1 / 2) - (a + dm) = -(dm * (1 / 2)) by ring, abs_neg]
      · refine ⟨a, va, ha, hleft, ?_, ?_⟩
        · have : (fm * va) * fa ^ 2 < 0 := by have := mul_neg_of_neg_of_pos (not_le.mp hs) hva; nlinarith
          nlinarith [sq_nonneg fa, this, sq_pos_of_ne_zero hfa]
        · rw [show a + dm * (1 / 2) - a = dm * (1 / 2) by ring]
    have hrec : ∀ r, bisectLoop f fa xtol rtol ytol n (if fm * fa ≥ 0 then a + dm * (1 / 2) else a) (dm * (1 / 2)) = .ok r →
        r ∈ uIcc a (a + dm) ∧ ∃ v, f r = .ok v ∧ (v = 0 ∨ ∃ c ∈ uIcc a (a + dm), ∃ vc, f c = .ok vc ∧ v * vc < 0 ∧
          |r - c| < xtol + rtol * |r - c| ∧ ∀ yt ∈ ytol, |v| < yt) := by
      intro r hr
      by_cases hs : fm * fa ≥ 0
      · rw [if_pos hs] at hr
        have hpos : 0 < fm * fa := lt_of_le_of_ne hs (mul_ne_zero h0 hfa).symm
        have e : a + dm * (1 / 2) + dm * (1 / 2) = a + dm := by ring
        obtain ⟨r1, v, r2, r3⟩ := ih _ _ fm vb r hfm hpos (by rw [e]; exact hb) hvb hr
        have sub : uIcc (a + dm * (1 / 2)) (a + dm * (1 / 2) + dm * (1 / 2)) ⊆ uIcc a (a + dm) := by
          rw [e]; exact uIcc_subset_uIcc hmem hright
        refine ⟨sub r1, v, r2, r3.imp id ?_⟩
        rintro ⟨c, hc, rest⟩
        exact ⟨c, sub hc, rest⟩
      · rw [if_neg hs] at hr
        obtain ⟨r1, v, r2, r3⟩ := ih _ _ va fm r ha hva hfm (not_le.mp hs) hr
        have sub : uIcc a (a + dm * (1 / 2)) ⊆ uIcc a (a + dm) := uIcc_subset_uIcc hleft hmem
        refine ⟨sub r1, v, r2, r3.imp id ?_⟩
        rintro ⟨c, hc, rest⟩
        exact ⟨c, sub hc, rest⟩
    rw [if_neg h0] at h
    cases ytol with
    | none =>
      dsimp only at h
      split_ifs at h with ht
      all_goals first
        | exact hrec r (by simpa [*] using h)
        | (cases h
           exact ⟨hmem, fm, hfm, Or.inr ⟨c, hc2, vc, hc1, hc3, by rw [hc4]; exact ht, by simp⟩⟩)
    | some yt =>
      dsimp only at h
      split_ifs at h with ht
      all_goals first
        | exact hrec r (by simpa [*] using h)
        | (cases h
           exact ⟨hmem, fm, hfm, Or.inr ⟨c, hc2, vc, hc1, hc3, by rw [hc4]; exact ht.1, by simpa using ht.2⟩⟩)

/-- C25: `bisect` raises `ValueError` exactly when the end values have the same strict sign. -/
theorem C25_bisect_rejects (f : K → Py K) (a b xtol rtol : K) (maxiter : ℕ) (ytol : Option K) (fa fb : K)
    (ha : f a = .ok fa) (hb : f b = .ok fb) (h : 0 < fa * fb) : bisect f a b xtol rtol maxiter ytol = .error .valueError := by
  simp [bisect, ha, hb, h]

/-- C25: whatever the objective, any value `r` returned by `bisect` lies between `a` and `b`, and it is either an exact zero or
an end of a bracket on which the objective strictly changes sign, narrower than the tolerance (`w < xtol + rtol w`), with
`|f r| < ytol` if a `ytol` was requested. -/
theorem C25_bisect_post (f : K → Py K) (a b xtol rtol : K) (maxiter : ℕ) (ytol : Option K) (r : K)
    (h : bisect f a b xtol rtol maxiter ytol = .ok r) :
    r ∈ uIcc a b ∧ ∃ v, f r = .ok v ∧ (v = 0 ∨ ∃ c ∈ uIcc a b, ∃ vc, f c = .ok vc ∧ v * vc < 0 ∧
      |r - c| < xtol + rtol * |r - c| ∧ ∀ yt ∈ ytol, |v| < yt) := by
  rw [bisect, Py.bind_eq_ok] at h
  obtain ⟨fa, ha, h⟩ := h
  rw [Py.bind_eq_ok] at h
  obtain ⟨fb, hb, h⟩ := h
  split_ifs at h with h1 h2 h3
  · cases h; exact ⟨left_mem_uIcc, fa, ha, Or.inl h2⟩
  · cases h; exact ⟨right_mem_uIcc, fb, hb, Or.inl h3⟩
  · have hneg : fa * fb < 0 := lt_of_le_of_ne (not_lt.mp h1) (mul_ne_zero h2 h3)
    have e : a + (b - a) = b := by ring
    have := bisectLoop_spec f fa xtol rtol ytol maxiter a (b - a) fa fb r ha (mul_self_pos.mpr h2) (by rw [e]; exact hb)
      (by rw [mul_comm]; exact hneg) h
    rwa [e] at this

theorem bisectLoop_conv (g : K → K) (fa xtol rtol : K) (hx : 0 < xtol) (hr : 0 ≤ rtol) (n : ℕ) : ∀ (a dm : K), 0 < n →
    |dm| < xtol * 2 ^ n → ∃ r, bisectLoop (fun x => .ok (g x)) fa xtol rtol none n a dm = .ok r := by
  induction n with
  | zero => intro a dm h; omega
  | succ n ih =>
    intro a dm _ hd
    have hd' : |dm * (1 / 2)| < xtol * 2 ^ n := by
      rw [abs_mul, abs_of_pos (by norm_num : (0 : K) < 1 / 2)]
      rw [pow_succ] at hd; linarith
    rw [bisectLoop]
    simp only [Py.ok_bind]
    by_cases h0 : g (a + dm * (1 / 2)) = 0
    · rw [if_pos h0]; exact ⟨_, rfl⟩
    rw [if_neg h0]
    by_cases ht : |dm * (1 / 2)| < xtol + rtol * |dm * (1 / 2)|
    · rw [if_pos ht]; exact ⟨_, rfl⟩
    rw [if_neg ht]
    rcases Nat.eq_zero_or_pos n with rfl | hn
    · rw [pow_zero, mul_one] at hd'
      exact absurd (lt_of_lt_of_le hd' (le_add_of_nonneg_right (mul_nonneg hr (abs_nonneg _)))) ht
    · exact ih _ _ hn hd'

/-- C25: convergence. With a sign change (or a zero end), `xtol > 0`, no `ytol`, and `2^maxiter` larger than the bracket
measured in `xtol`s, `bisect` returns a value. -/
theorem C25_bisect_converges (g : K → K) (a b xtol rtol : K) (maxiter : ℕ) (hx : 0 < xtol) (hr : 0 ≤ rtol)
    (hs : g a * g b ≤ 0) (hn : 0 < maxiter) (hw : |b - a| < xtol * 2 ^ maxiter) :
    ∃ r, bisect (fun x => .ok (g x)) a b xtol rtol maxiter none = .ok r := by
  simp only [bisect, Py.ok_bind, if_neg (not_lt.mpr hs)]
  split_ifs
  · exact ⟨_, rfl⟩
  · exact ⟨_, rfl⟩
  · exact bisectLoop_conv g _ xtol rtol hx hr maxiter a (b - a) hn hw

theorem bisectLoop_err (g : K → K) (fa xtol rtol : K) (ytol : Option K) (n : ℕ) : ∀ (a dm : K) (e : PyErr),
    bisectLoop (fun x => .ok (g x)) fa xtol rtol ytol n a dm = .error e → e = .unconvergedError := by
  induction n with
  | zero => intro a dm e h; simpa [bisectLoop, eq_comm] using h
  | succ n ih =>
    intro a dm e h
    rw [bisectLoop] at h
    simp only [Py.ok_bind] at h
    cases ytol <;> dsimp only at h <;> split_ifs at h <;> first | exact ih _ _ _ h | cases h

/-- C25: on a total objective with a sign change the only failure is `UnconvergedError`. -/
theorem C25_bisect_unconverged (g : K → K) (a b xtol rtol : K) (maxiter : ℕ) (ytol : Option K) (hs : g a * g b ≤ 0)
    (e : PyErr) (h : bisect (fun x => .ok (g x)) a b xtol rtol maxiter ytol = .error e) : e = .unconvergedError := by
  simp only [bisect, Py.ok_bind, if_neg (not_lt.mpr hs)] at h
  split_ifs at h
  exact bisectLoop_err g _ xtol rtol ytol maxiter a (b - a) e h

/-! ### damping_maintain_sign -/

theorem mapM_range_ok {α : Type _} (n : ℕ) (f : ℕ → Py α) (g : ℕ → α) (h : ∀ i < n, f i = .ok (g i)) :
    (List.range n).mapM f = .ok ((List.range n).map g) := by
  have : ∀ l : List ℕ, (∀ i ∈ l, i < n) → l.mapM f = .ok (l.map g) := by
    intro l
    induction l with
    | nil => intro _; rfl
    | cons a t ih =>
      intro hl
      rw [List.mapM_cons, h a (hl a (by simp)), ih (fun i hi => hl i (by simp [hi]))]
      rfl
  exact this _ (fun i hi => List.mem_range.mp hi)

/-- C35: for vectors of every length and `0 < factor`, `0 ≤ damping`, `damping * factor ≤ 1`, `damping ≤ 1`: no component of the damped step
changes sign (a nonnegative component stays nonnegative, a negative one stays nonpositive), and where the full step does not
cross zero the result is exactly `x + damping * step`. -/
theorem C35_damping (x step : List K) (damping factor : K) (hl : x.length ≤ step.length) (hd0 : 0 ≤ damping) (hd1 : damping ≤ 1)
    (hf : damping * factor ≤ 1) :
    ∃ y, damping_maintain_sign x step damping factor = .ok y ∧ y.length = x.length ∧ ∀ i < x.length,
      (0 ≤ x.getD i 0 → 0 ≤ y.getD i 0) ∧ (x.getD i 0 < 0 → y.getD i 0 ≤ 0) ∧
      ((0 ≤ x.getD i 0 ∧ 0 ≤ x.getD i 0 + step.getD i 0) ∨ (x.getD i 0 < 0 ∧ x.getD i 0 + step.getD i 0 ≤ 0) →
        y.getD i 0 = x.getD i 0 + damping * step.getD i 0) := by
  refine ⟨_, mapM_range_ok x.length _ (fun i => dampScalar (x.getD i 0) (step.getD i 0) damping factor) ?_, by simp, ?_⟩
  · intro i hi
    rw [List.getElem?_eq_getElem (by omega), List.getD_eq_getElem step _ (by omega)]
  · intro i hi
    rw [List.getD_eq_getElem ((List.range x.length).map _) 0 (by simpa using hi)]
    simp only [List.getElem_map, List.getElem_range]
    generalize x.getD i 0 = a
    generalize step.getD i 0 = s
    simp only [dampScalar, decide_eq_true_eq, ge_iff_le, not_le]
    refine ⟨fun h => ?_, fun h => ?_, fun h => ?_⟩
    · split_ifs with hc
      · nlinarith [mul_le_mul_of_nonneg_left hf h]
      · have : 0 ≤ a + s := by by_contra hh; exact hc (Or.inl ⟨h, not_le.mp hh⟩)
        nlinarith [mul_nonneg this hd0, mul_nonneg h (sub_nonneg.mpr hd1)]
    · split_ifs with hc
      · nlinarith
      · have : a + s ≤ 0 := by by_contra hh; exact hc (Or.inr ⟨h, not_le.mp hh⟩)
        nlinarith
    · rw [if_neg]
      · ring
      · rintro (⟨h1, h2⟩ | ⟨h1, h2⟩) <;> rcases h with ⟨h3, h4⟩ | ⟨h3, h4⟩ <;> linarith

example : damping_maintain_sign [1, -2, (3 : ℚ)] [-4, 1, 5] (1/2) (1/2) = .ok [3/4, -3/2, 11/2] := by decide +kernel

/-! ### brenth -/

/-- the step taken by `brenth` points from the current point to the opposite end of the bracket -/
theorem brent_dir_interp {c k x b : K} (hk : k * c < 0) (hx : b - x ≠ 0) :
    c - k ≠ 0 ∧ 0 < (-c * (x - b) / (c - k)) * (b - x) := by
  have hck : 0 < c * (c - k) := by nlinarith [sq_nonneg c]
  have hne : c - k ≠ 0 := by rintro h; rw [h] at hck; simp at hck
  refine ⟨hne, ?_⟩
  have e : (-c * (x - b) / (c - k)) * (b - x) = (c * (c - k)) * (b - x) ^ 2 / (c - k) ^ 2 := by
    field_simp; ring
  rw [e]; positivity

theorem sgn_facts {p c k : K} (hp : 0 < p * c) (hlt : |c| < |p|) (hk : k * c < 0) :
    k * (p - c) < 0 ∧ p * (k - c) < 0 ∧ 0 < c * (p - k) ∧ 0 < p * (p - c) ∧ 0 < k * (k - c) := by
  have hc : c ≠ 0 := by rintro rfl; simp at hp
  rcases lt_or_gt_of_ne hc with h | h
  · have hp' : p < 0 := by nlinarith
    have hk' : 0 < k := by nlinarith
    rw [abs_of_neg h, abs_of_neg hp'] at hlt
    refine ⟨?_, ?_, ?_, ?_, ?_⟩ <;> nlinarith
  · have hp' : 0 < p := by nlinarith
    have hk' : k < 0 := by nlinarith
    rw [abs_of_pos h, abs_of_pos hp'] at hlt
    refine ⟨?_, ?_, ?_, ?_, ?_⟩ <;> nlinarith

theorem brent_dir_extrap {p c k u w : K} (hp : 0 < p * c) (hlt : |c| < |p|) (hk : k * c < 0) (huw : u * w < 0) :
    k * ((p - c) / u) - p * ((k - c) / w) ≠ 0 ∧
    0 < (-c * (k - p) / (k * ((p - c) / u) - p * ((k - c) / w))) * w := by
  obtain ⟨s1, s2, s3, s4, s5⟩ := sgn_facts hp hlt hk
  have hu : u ≠ 0 := by rintro rfl; simp at huw
  have hw : w ≠ 0 := by rintro rfl; simp at huw
  have hD : 0 < (k * ((p - c) / u) - p * ((k - c) / w)) * w := by
    have e : (k * ((p - c) / u) - p * ((k - c) / w)) * w = (k * (p - c)) * (u * w) / u ^ 2 - p * (k - c) := by field_simp
    rw [e]
    have : 0 < (k * (p - c)) * (u * w) / u ^ 2 := by have := mul_pos_of_neg_of_neg s1 huw; positivity
    linarith
  set D := k * ((p - c) / u) - p * ((k - c) / w)
  have hne : D ≠ 0 := by rintro h; rw [h] at hD; simp at hD
  refine ⟨hne, ?_⟩
  have e : (-c * (k - p) / D) * w = (c * (p - k)) * (D * w) / D ^ 2 := by field_simp; ring
  rw [e]; positivity

theorem brent_dir_q {p c k u w : K} (hp : 0 < p * c) (hlt : |c| < |p|) (hk : k * c < 0) (huw : u * w < 0) :
    ((k - c) / w) * ((p - c) / u) * (k - p) ≠ 0 ∧
    0 < (-c * (k * ((k - c) / w) - p * ((p - c) / u)) / (((k - c) / w) * ((p - c) / u) * (k - p))) * w := by
  obtain ⟨s1, s2, s3, s4, s5⟩ := sgn_facts hp hlt hk
  have hu : u ≠ 0 := by rintro rfl; simp at huw
  have hw : w ≠ 0 := by rintro rfl; simp at huw
  have hX : 0 < (k * ((k - c) / w) - p * ((p - c) / u)) * w := by
    have e : (k * ((k - c) / w) - p * ((p - c) / u)) * w = k * (k - c) - (p * (p - c)) * (u * w) / u ^ 2 := by field_simp
    rw [e]
    have : (p * (p - c)) * (u * w) / u ^ 2 < 0 := by
      have := mul_neg_of_pos_of_neg s4 huw
      exact div_neg_of_neg_of_pos this (by positivity)
    linarith
  have hk0 : k ≠ 0 := by rintro rfl; simp at hk
  have hp0 : p ≠ 0 := by rintro rfl; simp at hp
  have hc0 : c ≠ 0 := by rintro rfl; simp at hp
  have hY : 0 < ((k - c) / w) * ((p - c) / u) := by
    have : (k * (p - c)) * (p * (k - c)) * (k * p) < 0 := by
      have h1 := mul_pos_of_neg_of_neg s1 s2
      have h2 : k * p < 0 := by
        have : (k * p) * c ^ 2 < 0 := by have := mul_neg_of_neg_of_pos hk hp; nlinarith
        nlinarith [sq_pos_of_ne_zero hc0]
      exact mul_neg_of_pos_of_neg h1 h2
    have h3 : (p - c) * (k - c) < 0 := by
      have : ((p - c) * (k - c)) * (k * p) ^ 2 < 0 := by nlinarith
      have h4 : 0 < (k * p) ^ 2 := by positivity
      nlinarith
    have e : ((k - c) / w) * ((p - c) / u) = ((p - c) * (k - c)) * (u * w) / (u * w) ^ 2 := by field_simp
    rw [e]
    have := mul_pos_of_neg_of_neg h3 huw
    have : 0 < (u * w) ^ 2 := by positivity
    positivity
  have hkp : k - p ≠ 0 := by intro h; rw [show p - k = -(k - p) by ring, h] at s3; simp at s3
  refine ⟨mul_ne_zero hY.ne' hkp, ?_⟩
  set Y := ((k - c) / w) * ((p - c) / u)
  set X := k * ((k - c) / w) - p * ((p - c) / u)
  have e : (-c * X / (Y * (k - p))) * w = (c * (p - k)) * (X * w) * Y / (Y * (k - p)) ^ 2 := by field_simp; ring
  rw [e]; positivity

/-- what the loop of `brenth` knows at its head: `xpre`, `xcur` and (unless the last step changed sign) `xblk` lie in the
interval, their values are the objective's, and the root is bracketed -/
structure BrentHead (f : K → Py K) (a b : K) (s : Brent K) : Prop where
  pre : f s.xpre = .ok s.fpre
  cur : f s.xcur = .ok s.fcur
  preI : s.xpre ∈ uIcc a b
  curI : s.xcur ∈ uIcc a b
  pre0 : s.fpre ≠ 0
  br : s.fpre * s.fcur < 0 ∨ (f s.xblk = .ok s.fblk ∧ s.xblk ∈ uIcc a b ∧ s.fblk * s.fpre < 0 ∧
    (s.xpre - s.xcur) * (s.xblk - s.xcur) < 0)

/-- what it knows after the two renamings -/
structure BrentMid (f : K → Py K) (a b : K) (s : Brent K) : Prop where
  pre : f s.xpre = .ok s.fpre
  cur : f s.xcur = .ok s.fcur
  blk : s.fcur ≠ 0 → f s.xblk = .ok s.fblk ∧ s.xblk ∈ uIcc a b ∧ s.fblk * s.fcur < 0
  preI : s.xpre ∈ uIcc a b
  curI : s.xcur ∈ uIcc a b
  side : s.fcur ≠ 0 → s.xpre = s.xblk ∨ (0 < s.fpre * s.fcur ∧ (s.xpre - s.xcur) * (s.xblk - s.xcur) < 0)

theorem brent_top {f : K → Py K} {a b : K} {s : Brent K} (h : BrentHead f a b s) : BrentMid f a b s.top := by
  obtain ⟨pre, cur, preI, curI, pre0, br⟩ := h
  simp only [Brent.top]
  by_cases h1 : s.fpre * s.fcur < 0
  · simp only [if_pos h1]
    by_cases h2 : |s.fpre| < |s.fcur|
    · simp only [if_pos h2]
      exact ⟨cur, pre, fun _ => ⟨cur, curI, by simpa [mul_comm] using h1⟩, curI, preI, fun _ => Or.inl rfl⟩
    · simp only [if_neg h2]
      exact ⟨pre, cur, fun _ => ⟨pre, preI, h1⟩, preI, curI, fun _ => Or.inl rfl⟩
  · simp only [if_neg h1]
    obtain ⟨b1, b2, b3, b4⟩ := br.resolve_left h1
    have key : s.fcur ≠ 0 → 0 < s.fpre * s.fcur ∧ s.fblk * s.fcur < 0 := by
      intro h0
      have hp : 0 < s.fpre * s.fcur := lt_of_le_of_ne (not_lt.mp h1) (mul_ne_zero pre0 h0).symm
      refine ⟨hp, ?_⟩
      have : (s.fblk * s.fcur) * s.fpre ^ 2 < 0 := by have := mul_neg_of_neg_of_pos b3 hp; nlinarith
      have := sq_pos_of_ne_zero pre0
      nlinarith
    by_cases h2 : |s.fblk| < |s.fcur|
    · simp only [if_pos h2]
      have h0 : s.fcur ≠ 0 := by intro h; rw [h, abs_zero] at h2; exact absurd h2 (not_lt.mpr (abs_nonneg _))
      exact ⟨cur, b1, fun _ => ⟨cur, curI, by simpa [mul_comm] using (key h0).2⟩, curI, b2, fun _ => Or.inl rfl⟩
    · simp only [if_neg h2]
      exact ⟨pre, cur, fun h0 => ⟨b1, b2, (key h0).2⟩, preI, curI, fun h0 => Or.inr ⟨(key h0).1, b4⟩⟩

theorem brent_steps {f : K → Py K} {a b : K} {s : Brent K} (h : BrentMid f a b s) (q : Bool) (delta : K)
    (hd : 0 < delta) (h0 : s.fcur ≠ 0) (hs : delta ≤ |1 / 2 * (s.xblk - s.xcur)|) :
    ∃ st, s.steps q delta (1 / 2 * (s.xblk - s.xcur)) = .ok st ∧ (st.2 = 1 / 2 * (s.xblk - s.xcur) ∨
      (0 < st.2 * (s.xblk - s.xcur) ∧ |st.2 + st.2| < 3 * |1 / 2 * (s.xblk - s.xcur)|)) := by
  obtain ⟨pre, cur, blk, preI, curI, side⟩ := h
  obtain ⟨b1, b2, b3⟩ := blk h0
  have hx : s.xblk - s.xcur ≠ 0 := by intro hh; rw [hh] at hs; simp at hs; linarith
  simp only [Brent.steps]
  by_cases hc : |s.spre| > delta ∧ |s.fcur| < |s.fpre|
  · rw [if_pos hc]
    have fin : ∀ stry : K, 0 < stry * (s.xblk - s.xcur) → ∃ st : K × K,
        (if |stry + stry| < min |s.spre| (3 * |1 / 2 * (s.xblk - s.xcur)| - delta) then Except.ok (s.scur, stry)
          else Except.ok (1 / 2 * (s.xblk - s.xcur), 1 / 2 * (s.xblk - s.xcur)) : Py (K × K)) = .ok st ∧
        (st.2 = 1 / 2 * (s.xblk - s.xcur) ∨
      (0 < st.2 * (s.xblk - s.xcur) ∧ |st.2 + st.2| < 3 * |1 / 2 * (s.xblk - s.xcur)|)) := by
      intro stry hst
      split_ifs with ht
      · exact ⟨_, rfl, Or.inr ⟨hst, by have := (lt_min_iff.mp ht).2; linarith⟩⟩
      · exact ⟨_, rfl, Or.inl rfl⟩
    by_cases he : s.xpre = s.xblk
    · have hfe : s.fpre = s.fblk := by rw [he, b1] at pre; exact (Except.ok.inj pre).symm
      obtain ⟨d1, d2⟩ := brent_dir_interp b3 hx
      simp only [if_pos he, hfe, pdiv_ok d1, Py.ok_bind]
      rw [he]
      exact fin _ d2
    · obtain ⟨hp, huw⟩ := (side h0).resolve_left he
      have hu : s.xpre - s.xcur ≠ 0 := by intro hh; rw [hh] at huw; simp at huw
      simp only [if_neg he, pdiv_ok hu, pdiv_ok hx, Py.ok_bind]
      cases q
      · obtain ⟨d1, d2⟩ := brent_dir_extrap hp hc.2 b3 huw
        simp only [Bool.false_eq_true, if_false, pdiv_ok d1, Py.ok_bind]
        exact fin _ d2
      · obtain ⟨d1, d2⟩ := brent_dir_q hp hc.2 b3 huw
        simp only [if_true, pdiv_ok d1, Py.ok_bind]
        exact fin _ d2
  · rw [if_neg hc]
    exact ⟨_, rfl, Or.inl rfl⟩

theorem brent_next {x b delta scur : K} (hd : 0 < delta) (hs : delta ≤ |1 / 2 * (b - x)|)
    (h : scur = 1 / 2 * (b - x) ∨ (0 < scur * (b - x) ∧ |scur + scur| < 3 * |1 / 2 * (b - x)|)) :
    (x - Brent.next delta (1 / 2 * (b - x)) scur x) * (b - Brent.next delta (1 / 2 * (b - x)) scur x) < 0 := by
  simp only [Brent.next]
  rcases lt_or_ge 0 (b - x) with hb | hb
  · have hsb : |1 / 2 * (b - x)| = 1 / 2 * (b - x) := abs_of_pos (by linarith)
    rw [hsb] at hs h
    have hsc : 0 < scur := by
      rcases h with h | ⟨h, -⟩
      · rw [h]; linarith
      · exact (pos_iff_pos_of_mul_pos h).mpr hb
    have hsc2 : scur < b - x := by
      rcases h with h | ⟨-, h⟩
      · rw [h]; linarith
      · rw [abs_of_pos (by linarith)] at h; linarith
    split_ifs with h1 h2
    · nlinarith
    · nlinarith
    · exact absurd (by linarith : 0 < 1 / 2 * (b - x)) h2
  · have hb' : b - x < 0 := by
      rcases hb.lt_or_eq with hh | hh
      · exact hh
      · rw [hh] at hs; simp at hs; linarith
    have hsb : |1 / 2 * (b - x)| = -(1 / 2 * (b - x)) := abs_of_neg (by linarith)
    rw [hsb] at hs h
    have hsc : scur < 0 := by
      rcases h with h | ⟨h, -⟩
      · rw [h]; linarith
      · nlinarith
    have hsc2 : b - x < scur := by
      rcases h with h | ⟨-, h⟩
      · rw [h]; linarith
      · rw [abs_of_neg (by linarith)] at h; linarith
    split_ifs with h1 h2
    · nlinarith
    · exact absurd h2 (by linarith)
    · nlinarith

theorem uIcc_between {a b x y z : K} (hx : x ∈ uIcc a b) (hz : z ∈ uIcc a b) (h : (x - y) * (z - y) < 0) : y ∈ uIcc a b := by
  have : y ∈ uIcc x z := by
    rw [mem_uIcc]
    rcases le_total x y with h1 | h1 <;> rcases le_total y z with h2 | h2
    · exact Or.inl ⟨h1, h2⟩
    · nlinarith
    · nlinarith
    · exact Or.inr ⟨h2, h1⟩
  exact uIcc_subset_uIcc hx hz this

theorem brenthLoop_spec (f : K → Py K) (a b xtol rtol : K) (q : Bool) (hx : 0 < xtol) (hr : 0 ≤ rtol) (n : ℕ) :
    ∀ s, BrentHead f a b s →
      (∀ r, brenthLoop f xtol rtol none q n s = .ok r → r ∈ uIcc a b ∧ ∃ v, f r = .ok v ∧
        (v = 0 ∨ ∃ c ∈ uIcc a b, ∃ vc, f c = .ok vc ∧ v * vc < 0 ∧ |r - c| < xtol + rtol * |r|)) ∧
      (∀ e, brenthLoop f xtol rtol none q n s = .error e → e = .unconvergedError ∨ ∃ x ∈ uIcc a b, f x = .error e) := by
  induction n with
  | zero => intro s _; simp [brenthLoop, eq_comm]
  | succ n ih =>
    intro s hs
    have hm := brent_top hs
    rw [brenthLoop]
    simp only
    generalize s.top = t at hm
    set delta := 1 / 2 * (xtol + rtol * |t.xcur|) with hdelta
    have hdp : 0 < delta := by have := mul_nonneg hr (abs_nonneg t.xcur); rw [hdelta]; linarith
    by_cases h0 : t.fcur = 0
    · rw [if_pos (by simp [h0])]
      refine ⟨fun r hr => ?_, fun e he => by cases he⟩
      cases hr
      exact ⟨hm.curI, _, hm.cur, Or.inl h0⟩
    obtain ⟨b1, b2, b3⟩ := hm.blk h0
    by_cases ht : |1 / 2 * (t.xblk - t.xcur)| < delta
    · rw [if_pos (by simp only [ht, or_true, decide_true])]
      refine ⟨fun r hr => ?_, fun e he => by cases he⟩
      cases hr
      refine ⟨hm.curI, _, hm.cur, Or.inr ⟨t.xblk, b2, _, b1, by rw [mul_comm]; exact b3, ?_⟩⟩
      rw [abs_mul, abs_of_pos (by norm_num : (0 : K) < 1 / 2)] at ht
      rw [abs_sub_comm]; linarith
    · rw [if_neg (by simp only [ht, h0, or_self, decide_false, Bool.false_eq_true, not_false_iff])]
      obtain ⟨st, st1, st2⟩ := brent_steps hm q delta hdp h0 (not_lt.mp ht)
      have hnext := brent_next hdp (not_lt.mp ht) st2
      simp only [st1, Py.ok_bind]
      set xnew := Brent.next delta (1 / 2 * (t.xblk - t.xcur)) st.2 t.xcur
      have hxI : xnew ∈ uIcc a b := uIcc_between hm.curI b2 hnext
      rcases hf : f xnew with e | fnew
      · simp only [Py.error_bind]
        refine ⟨fun r hr => by (cases hr), fun e' he => ?_⟩
        cases he
        exact Or.inr ⟨xnew, hxI, hf⟩
      · simp only [Py.ok_bind]
        exact ih _ ⟨hm.cur, hf, hm.curI, hxI, h0, Or.inr ⟨b1, b2, b3, hnext⟩⟩

/-- C26: `brenth` (default `ytol = None`) on any objective, with `fa`, `fb` omitted or correct: same-signed ends raise; a
returned point lies in the bracket and is an exact zero or the end of a sign-changing bracket narrower than
`xtol + rtol |r|`; the only errors on a sign change are `UnconvergedError` and the objective's own, and the objective is only
ever evaluated inside the bracket. In particular no division by zero can occur. -/
theorem C26_brenth (f : K → Py K) (xa xb xtol rtol : K) (maxiter : ℕ) (q : Bool) (fa fb : Option K) (va vb : K)
    (hx : 0 < xtol) (hr : 0 ≤ rtol) (ha : f xa = .ok va) (hb : f xb = .ok vb) (hfa : ∀ v ∈ fa, v = va) (hfb : ∀ v ∈ fb, v = vb) :
    (0 < va * vb → brenth f xa xb xtol rtol maxiter none q fa fb = .error .notBoundedError) ∧
    (va * vb ≤ 0 →
      (∀ r, brenth f xa xb xtol rtol maxiter none q fa fb = .ok r → r ∈ uIcc xa xb ∧ ∃ v, f r = .ok v ∧
        (v = 0 ∨ ∃ c ∈ uIcc xa xb, ∃ vc, f c = .ok vc ∧ v * vc < 0 ∧ |r - c| < xtol + rtol * |r|)) ∧
      (∀ e, brenth f xa xb xtol rtol maxiter none q fa fb = .error e →
        e = .unconvergedError ∨ ∃ x ∈ uIcc xa xb, f x = .error e)) := by
  have e1 : given fa (f xa) = .ok va := by
    cases fa with
    | none => exact ha
    | some v => exact congrArg Except.ok (hfa v rfl)
  have e2 : given fb (f xb) = .ok vb := by
    cases fb with
    | none => exact hb
    | some v => exact congrArg Except.ok (hfb v rfl)
  simp only [brenth, e1, e2, Py.ok_bind]
  refine ⟨fun h => if_pos h, fun h => ?_⟩
  rw [if_neg (not_lt.mpr h)]
  by_cases h1 : va = 0
  · rw [if_pos h1]
    refine ⟨fun r hr => ?_, fun e he => by cases he⟩
    cases hr; exact ⟨left_mem_uIcc, va, ha, Or.inl h1⟩
  rw [if_neg h1]
  by_cases h2 : vb = 0
  · rw [if_pos h2]
    refine ⟨fun r hr => ?_, fun e he => by cases he⟩
    cases hr; exact ⟨right_mem_uIcc, vb, hb, Or.inl h2⟩
  rw [if_neg h2]
  exact brenthLoop_spec f xa xb xtol rtol q hx hr maxiter _ ⟨ha, hb, left_mem_uIcc, right_mem_uIcc, h1,
    Or.inl (lt_of_le_of_ne h (mul_ne_zero h1 h2))⟩

/-- the weaker invariant that survives a requested `ytol` (steps may then overshoot the bracket) -/
theorem brenthLoop_ytol (f : K → Py K) (xtol rtol yt : K) (q : Bool) (n : ℕ) : ∀ s : Brent K,
    f s.xpre = .ok s.fpre → f s.xcur = .ok s.fcur → s.fpre ≠ 0 →
    (s.fpre * s.fcur < 0 ∨ (f s.xblk = .ok s.fblk ∧ s.fblk * s.fpre < 0)) →
    ∀ r, brenthLoop f xtol rtol (some yt) q n s = .ok r → ∃ v, f r = .ok v ∧
        (v = 0 ∨ |v| < yt ∧ ∃ c vc, f c = .ok vc ∧ v * vc < 0 ∧ |r - c| < xtol + rtol * |r|) := by
  induction n with
  | zero => intro s _ _ _ _; simp [brenthLoop]
  | succ n ih =>
    intro s pre cur pre0 br r hr
    obtain ⟨t1, t2⟩ : f s.top.xcur = .ok s.top.fcur ∧ (s.top.fcur ≠ 0 → f s.top.xblk = .ok s.top.fblk ∧
        s.top.fblk * s.top.fcur < 0) := by
      simp only [Brent.top]
      by_cases h1 : s.fpre * s.fcur < 0
      · simp only [if_pos h1]
        by_cases h2 : |s.fpre| < |s.fcur|
        · simp only [if_pos h2]; exact ⟨pre, fun _ => ⟨cur, by rw [mul_comm]; exact h1⟩⟩
        · simp only [if_neg h2]; exact ⟨cur, fun _ => ⟨pre, h1⟩⟩
      · simp only [if_neg h1]
        obtain ⟨b1, b3⟩ := br.resolve_left h1
        have key : s.fcur ≠ 0 → s.fblk * s.fcur < 0 := by
          intro h0
          have hp : 0 < s.fpre * s.fcur := lt_of_le_of_ne (not_lt.mp h1) (mul_ne_zero pre0 h0).symm
          have : (s.fblk * s.fcur) * s.fpre ^ 2 < 0 := by have := mul_neg_of_neg_of_pos b3 hp; nlinarith
          have := sq_pos_of_ne_zero pre0
          nlinarith
        by_cases h2 : |s.fblk| < |s.fcur|
        · simp only [if_pos h2]
          have h0 : s.fcur ≠ 0 := by intro h; rw [h, abs_zero] at h2; exact absurd h2 (not_lt.mpr (abs_nonneg _))
          exact ⟨b1, fun _ => ⟨cur, by rw [mul_comm]; exact key h0⟩⟩
        · simp only [if_neg h2]; exact ⟨cur, fun h0 => ⟨b1, key h0⟩⟩
    rw [brenthLoop] at hr
    simp only at hr
    generalize s.top = t at t1 t2 hr
    by_cases h0 : t.fcur = 0
    · rw [if_pos (by simp [h0])] at hr
      cases hr
      exact ⟨_, t1, Or.inl h0⟩
    obtain ⟨b1, b3⟩ := t2 h0
    by_cases ht : |1 / 2 * (t.xblk - t.xcur)| < 1 / 2 * (xtol + rtol * |t.xcur|) ∧ |t.fcur| < yt
    · rw [if_pos (by simp only [ht, and_self, or_true, decide_true])] at hr
      cases hr
      refine ⟨_, t1, Or.inr ⟨ht.2, t.xblk, _, b1, by rw [mul_comm]; exact b3, ?_⟩⟩
      have := ht.1
      rw [abs_mul, abs_of_pos (by norm_num : (0 : K) < 1 / 2)] at this
      rw [abs_sub_comm]; linarith
    · rw [if_neg (by simp only [ht, h0, or_self, decide_false, Bool.false_eq_true, not_false_iff]), Py.bind_eq_ok] at hr
      obtain ⟨st, -, hr⟩ := hr
      simp only [Py.bind_eq_ok] at hr
      obtain ⟨fnew, hf, hr⟩ := hr
      exact ih ⟨t.xcur, _, t.xblk, t.fcur, fnew, t.fblk, st.1, st.2⟩ t1 hf h0 (Or.inr ⟨b1, b3⟩) r hr

/-- C26: with a `ytol`, a point returned by `brenth` is an exact zero or satisfies both `|f r| < ytol` and the x tolerance on a
sign-changing bracket (the bracket is then not guaranteed to lie inside `[xa, xb]`). -/
theorem C26_brenth_ytol (f : K → Py K) (xa xb xtol rtol yt : K) (maxiter : ℕ) (q : Bool) (fa fb : Option K) (va vb r : K)
    (ha : f xa = .ok va) (hb : f xb = .ok vb) (hfa : ∀ v ∈ fa, v = va) (hfb : ∀ v ∈ fb, v = vb)
    (h : brenth f xa xb xtol rtol maxiter (some yt) q fa fb = .ok r) : ∃ v, f r = .ok v ∧
        (v = 0 ∨ |v| < yt ∧ ∃ c vc, f c = .ok vc ∧ v * vc < 0 ∧ |r - c| < xtol + rtol * |r|) := by
  have e1 : given fa (f xa) = .ok va := by
    cases fa with
    | none => exact ha
    | some v => exact congrArg Except.ok (hfa v rfl)
  have e2 : given fb (f xb) = .ok vb := by
    cases fb with
    | none => exact hb
    | some v => exact congrArg Except.ok (hfb v rfl)
  simp only [brenth, e1, e2, Py.ok_bind] at h
  split_ifs at h with h1 h2 h3
  · cases h; exact ⟨va, ha, Or.inl h2⟩
  · cases h; exact ⟨vb, hb, Or.inl h3⟩
  · exact brenthLoop_ytol f xtol rtol yt q maxiter _ ha hb h2
      (Or.inl (lt_of_le_of_ne (not_lt.mp h1) (mul_ne_zero h2 h3))) r h

/-! ### best_bounding_bounds -/

theorem foldl_min_mem (l : List K) : ∀ h : K, minL h l ∈ h :: l := by
  induction l with
  | nil => intro h; simp [minL]
  | cons a t ih =>
    intro h
    have := ih (min h a)
    simp only [minL, List.foldl_cons] at this ⊢
    rcases List.mem_cons.mp this with h1 | h1
    · rw [h1]
      rcases min_choice h a with h2 | h2 <;> rw [h2] <;> simp
    · simp [h1]

theorem foldl_max_mem (l : List K) : ∀ h : K, maxL h l ∈ h :: l := by
  induction l with
  | nil => intro h; simp [maxL]
  | cons a t ih =>
    intro h
    have := ih (max h a)
    simp only [maxL, List.foldl_cons] at this ⊢
    rcases List.mem_cons.mp this with h1 | h1
    · rw [h1]
      rcases max_choice h a with h2 | h2 <;> rw [h2] <;> simp
    · simp [h1]

/-- a history: the `ys` are the objective's values at the `xs` -/
def History (f : K → Py K) (xs ys : List K) : Prop :=
  xs.length = ys.length ∧ ∀ i (h : i < ys.length) (h' : i < xs.length), f xs[i] = .ok ys[i]

theorem history_get {f : K → Py K} {xs ys : List K} (h : History f xs ys) {m : K} (hm : m ∈ ys) :
    ∃ x, xs[ys.idxOf m]? = some x ∧ f x = .ok m := by
  have h1 : ys.idxOf m < ys.length := List.idxOf_lt_length_of_mem hm
  have h2 : ys.idxOf m < xs.length := h.1 ▸ h1
  refine ⟨xs[ys.idxOf m], List.getElem?_eq_getElem h2, ?_⟩
  rw [h.2 _ h1 h2, List.getElem_idxOf]

/-- C82: with a consistent history of any length, whatever `best_bounding_bounds` returns is a bracket: the returned values are the
objective's values at the returned ends, and they do not have the same sign. When `f(low) < 0` neither end is further from
zero than before. -/
theorem C82_best_bounds_bracket (low high : K) (f : K → Py K) (xs_pos ys_pos xs_neg ys_neg : List K) (va vb : K)
    (hl : f low = .ok va) (hh : f high = .ok vb) (hp : History f xs_pos ys_pos) (hn : History f xs_neg ys_neg)
    (hpos : ∀ y ∈ ys_pos, 0 < y) (hneg : ∀ y ∈ ys_neg, y < 0) (fa fb : Option K) (hfa : ∀ v ∈ fa, v = va) (hfb : ∀ v ∈ fb, v = vb)
    (l h wa wb : K) (hok : best_bounding_bounds low high f xs_pos ys_pos xs_neg ys_neg fa fb = .ok (l, h, wa, wb)) :
    f l = .ok wa ∧ f h = .ok wb ∧ wa * wb ≤ 0 ∧ (va < 0 → |wa| ≤ |va| ∧ |wb| ≤ |vb|) := by
  have e1 : given fa (f low) = .ok va := by
    cases fa with
    | none => exact hl
    | some v => exact congrArg Except.ok (hfa v rfl)
  have e2 : given fb (f high) = .ok vb := by
    cases fb with
    | none => exact hh
    | some v => exact congrArg Except.ok (hfb v rfl)
  simp only [best_bounding_bounds, e1, e2, Py.ok_bind] at hok
  rw [Py.bind_eq_ok] at hok
  obtain ⟨⟨ymp, l1, h1, a1, b1⟩, s1, hok⟩ := hok
  have inv1 : f l1 = .ok a1 ∧ f h1 = .ok b1 ∧ (va < 0 → a1 = va ∧ |b1| ≤ |vb|) := by
    simp only [boundsPos] at s1
    cases ys_pos with
    | nil => simp only [Py.pure_eq, Except.ok.injEq, Prod.mk.injEq] at s1; obtain ⟨-, rfl, rfl, rfl, rfl⟩ := s1
             exact ⟨hl, hh, fun _ => ⟨rfl, le_rfl⟩⟩
    | cons y ys =>
      have hm := foldl_min_mem ys y
      obtain ⟨x, hx, hfx⟩ := history_get hp hm
      simp only [hx, Py.pure_eq] at s1
      have hmp := hpos _ hm
      split_ifs at s1 with c1 c2 c3 <;> simp only [Except.ok.injEq, Prod.mk.injEq] at s1 <;>
        obtain ⟨-, rfl, rfl, rfl, rfl⟩ := s1
      · exact ⟨hfx, hh, fun h => absurd c1 (by linarith)⟩
      · exact ⟨hl, hh, fun _ => ⟨rfl, le_rfl⟩⟩
      · exact ⟨hl, hfx, fun _ => ⟨rfl, by rw [abs_of_pos hmp, abs_of_pos (hmp.trans c3)]; exact c3.le⟩⟩
      · exact ⟨hl, hh, fun _ => ⟨rfl, le_rfl⟩⟩
  obtain ⟨i1, i2, i3⟩ := inv1
  simp only at hok
  rw [Py.bind_eq_ok] at hok
  obtain ⟨⟨l2, h2, a2, b2⟩, s2, hok⟩ := hok
  have inv2 : f l2 = .ok a2 ∧ f h2 = .ok b2 ∧ (va < 0 → |a2| ≤ |va| ∧ |b2| ≤ |vb|) := by
    simp only [boundsNeg] at s2
    cases ys_neg with
    | nil => simp only [Py.pure_eq, Except.ok.injEq, Prod.mk.injEq] at s2; obtain ⟨rfl, rfl, rfl, rfl⟩ := s2
             exact ⟨i1, i2, fun h => ⟨by rw [(i3 h).1], (i3 h).2⟩⟩
    | cons y ys =>
      have hm := foldl_max_mem ys y
      obtain ⟨x, hx, hfx⟩ := history_get hn hm
      simp only [hx, Py.pure_eq] at s2
      have hmn := hneg _ hm
      split_ifs at s2 with c1 c2
      · simp only [Except.ok.injEq, Prod.mk.injEq] at s2
        obtain ⟨rfl, rfl, rfl, rfl⟩ := s2
        refine ⟨hfx, i2, fun h => ⟨?_, (i3 h).2⟩⟩
        rw [(i3 h).1] at c2
        rw [abs_of_neg hmn, abs_of_neg h]; linarith
      · simp only [Except.ok.injEq, Prod.mk.injEq] at s2
        obtain ⟨rfl, rfl, rfl, rfl⟩ := s2
        exact ⟨i1, i2, fun h => ⟨by rw [(i3 h).1], (i3 h).2⟩⟩
      · cases ymp with
        | none => simp at s2
        | some w =>
          simp only at s2
          split_ifs at s2 <;> simp only [Except.ok.injEq, Prod.mk.injEq] at s2 <;> obtain ⟨rfl, rfl, rfl, rfl⟩ := s2
          · exact ⟨i1, hfx, fun h => absurd ((i3 h).1 ▸ h) c1⟩
          · exact ⟨i1, i2, fun h => absurd ((i3 h).1 ▸ h) c1⟩
  obtain ⟨j1, j2, j3⟩ := inv2
  simp only at hok
  split_ifs at hok with c
  simp only [Py.pure_eq, Except.ok.injEq, Prod.mk.injEq] at hok
  obtain ⟨rfl, rfl, rfl, rfl⟩ := hok
  exact ⟨j1, j2, not_lt.mp c, j3⟩

theorem minL_least (y : K) (ys : List K) : IsLeast {z | z ∈ y :: ys} (minL y ys) := by
  refine ⟨foldl_min_mem ys y, ?_⟩
  have : ∀ (ys : List K) (y : K), minL y ys ≤ y ∧ ∀ z ∈ ys, minL y ys ≤ z := by
    intro ys
    induction ys with
    | nil => intro y; simp [minL]
    | cons a t ih =>
      intro y
      have := ih (min y a)
      simp only [minL, List.foldl_cons] at this ⊢
      refine ⟨this.1.trans (min_le_left _ _), fun z hz => ?_⟩
      rcases List.mem_cons.1 hz with rfl | hz
      · exact this.1.trans (min_le_right _ _)
      · exact this.2 z hz
  intro z hz
  rcases List.mem_cons.1 hz with rfl | hz
  · exact (this ys z).1
  · exact (this ys y).2 z hz

theorem maxL_greatest (y : K) (ys : List K) : IsGreatest {z | z ∈ y :: ys} (maxL y ys) := by
  refine ⟨foldl_max_mem ys y, ?_⟩
  have : ∀ (ys : List K) (y : K), y ≤ maxL y ys ∧ ∀ z ∈ ys, z ≤ maxL y ys := by
    intro ys
    induction ys with
    | nil => intro y; simp [maxL]
    | cons a t ih =>
      intro y
      have := ih (max y a)
      simp only [maxL, List.foldl_cons] at this ⊢
      refine ⟨(le_max_left _ _).trans this.1, fun z hz => ?_⟩
      rcases List.mem_cons.1 hz with rfl | hz
      · exact (le_max_right _ _).trans this.1
      · exact this.2 z hz
  intro z hz
  rcases List.mem_cons.1 hz with rfl | hz
  · exact (this ys z).1
  · exact (this ys y).2 z hz

/-- C82: from ends of opposite signs and a consistent history the answer is always the same function of the points. With the negative end below, both returned ends are the evaluated points
closest to zero on their side, the given end included. With the positive end below, so is the positive end, but the negative one is the closest of the history even if the given end was closer;
without a positive history it is not found at all. -/
theorem C82_best_bounds (low high : K) (f : K → Py K) (xs_pos ys_pos xs_neg ys_neg : List K) (va vb : K)
    (hl : f low = .ok va) (hh : f high = .ok vb) (hp : History f xs_pos ys_pos) (hn : History f xs_neg ys_neg)
    (hpos : ∀ y ∈ ys_pos, 0 < y) (hneg : ∀ y ∈ ys_neg, y < 0) (fa fb : Option K) (hfa : ∀ v ∈ fa, v = va) (hfb : ∀ v ∈ fb, v = vb) :
    (va < 0 → 0 < vb → ∃ l h wa wb, best_bounding_bounds low high f xs_pos ys_pos xs_neg ys_neg fa fb = .ok (l, h, wa, wb) ∧ f l = .ok wa ∧ f h = .ok wb ∧
      IsGreatest {y | y ∈ va :: ys_neg} wa ∧ IsLeast {y | y ∈ vb :: ys_pos} wb) ∧
    (0 < va → vb < 0 → ys_neg = [] ∨ ys_pos ≠ [] → ∃ l h wa wb, best_bounding_bounds low high f xs_pos ys_pos xs_neg ys_neg fa fb = .ok (l, h, wa, wb) ∧
      f l = .ok wa ∧ f h = .ok wb ∧ IsLeast {y | y ∈ va :: ys_pos} wa ∧ (if ys_neg = [] then wb = vb else IsGreatest {y | y ∈ ys_neg} wb)) ∧
    (0 < va → vb < 0 → ys_neg ≠ [] → ys_pos = [] → best_bounding_bounds low high f xs_pos ys_pos xs_neg ys_neg fa fb = .error .unboundLocalError) := by
  have e1 : given fa (f low) = .ok va := by
    cases fa with
    | none => exact hl
    | some v => exact congrArg Except.ok (hfa v rfl)
  have e2 : given fb (f high) = .ok vb := by
    cases fb with
    | none => exact hh
    | some v => exact congrArg Except.ok (hfb v rfl)
  -- the two passes, for each sign of the low end
  have neg : ∀ (ymp : Option K) (h : K) (wb : K), f h = .ok wb → va < 0 → ∃ l wa, boundsNeg ymp low h va wb xs_neg ys_neg = .ok (l, h, wa, wb) ∧ f l = .ok wa ∧
      IsGreatest {y | y ∈ va :: ys_neg} wa ∧ wa < 0 := by
    intro ymp h wb hw h0
    cases ys_neg with
    | nil => exact ⟨low, va, rfl, hl, by simp [IsGreatest, upperBounds], h0⟩
    | cons y ys =>
      have hm := foldl_max_mem ys y
      have hM := maxL_greatest y ys
      obtain ⟨x, hx, hfx⟩ := history_get hn hm
      simp only [boundsNeg, hx, if_pos h0]
      split_ifs with c
      · refine ⟨x, _, rfl, hfx, ⟨List.mem_cons_of_mem _ hm, fun z hz => ?_⟩, hneg _ hm⟩
        rcases List.mem_cons.1 hz with rfl | hz
        · exact le_of_lt c
        · exact hM.2 hz
      · refine ⟨low, va, rfl, hl, ⟨List.mem_cons_self, fun z hz => ?_⟩, h0⟩
        rcases List.mem_cons.1 hz with rfl | hz
        · exact le_rfl
        · exact (hM.2 hz).trans (not_lt.1 c)
  refine ⟨fun h0 h1 => ?_, fun h0 h1 hlist => ?_, fun h0 h1 hn' hp' => ?_⟩
  · have pos : ∃ ymp h wb, boundsPos low high va vb xs_pos ys_pos = .ok (ymp, low, h, va, wb) ∧ f h = .ok wb ∧ IsLeast {y | y ∈ vb :: ys_pos} wb ∧ 0 < wb := by
      cases ys_pos with
      | nil => exact ⟨none, high, vb, rfl, hh, by simp [IsLeast, lowerBounds], h1⟩
      | cons y ys =>
        have hm := foldl_min_mem ys y
        have hM := minL_least y ys
        obtain ⟨x, hx, hfx⟩ := history_get hp hm
        simp only [boundsPos, hx, if_neg (show ¬ va > 0 from not_lt.2 h0.le)]
        split_ifs with c
        · refine ⟨_, x, _, rfl, hfx, ⟨List.mem_cons_of_mem _ hm, fun z hz => ?_⟩, hpos _ hm⟩
          rcases List.mem_cons.1 hz with rfl | hz
          · exact c.le
          · exact hM.2 hz
        · refine ⟨_, high, vb, rfl, hh, ⟨List.mem_cons_self, fun z hz => ?_⟩, h1⟩
          rcases List.mem_cons.1 hz with rfl | hz
          · exact le_rfl
          · exact (not_lt.1 c).trans (hM.2 hz)
    obtain ⟨ymp, h, wb, p1, p2, p3, p4⟩ := pos
    obtain ⟨l, wa, n1, n2, n3, n4⟩ := neg ymp h wb p2 h0
    refine ⟨l, h, wa, wb, ?_, n2, p2, n3, p3⟩
    simp only [best_bounding_bounds, e1, e2, Py.ok_bind, p1, n1]
    rw [if_neg (not_lt.2 (mul_neg_of_neg_of_pos n4 p4).le)]
  · have pos : ∃ ymp l wa, boundsPos low high va vb xs_pos ys_pos = .ok (ymp, l, high, wa, vb) ∧ f l = .ok wa ∧ IsLeast {y | y ∈ va :: ys_pos} wa ∧ 0 < wa ∧
        (ys_pos ≠ [] → ∃ w, ymp = some w ∧ 0 < w) := by
      cases ys_pos with
      | nil => exact ⟨none, low, va, rfl, hl, by simp [IsLeast, lowerBounds], h0, fun h => absurd rfl h⟩
      | cons y ys =>
        have hm := foldl_min_mem ys y
        have hM := minL_least y ys
        obtain ⟨x, hx, hfx⟩ := history_get hp hm
        simp only [boundsPos, hx, if_pos (show va > 0 from h0)]
        split_ifs with c
        · refine ⟨_, x, _, rfl, hfx, ⟨List.mem_cons_of_mem _ hm, fun z hz => ?_⟩, hpos _ hm, fun _ => ⟨_, rfl, hpos _ hm⟩⟩
          rcases List.mem_cons.1 hz with rfl | hz
          · exact c.le
          · exact hM.2 hz
        · refine ⟨_, low, va, rfl, hl, ⟨List.mem_cons_self, fun z hz => ?_⟩, h0, fun _ => ⟨_, rfl, hpos _ hm⟩⟩
          rcases List.mem_cons.1 hz with rfl | hz
          · exact le_rfl
          · exact (not_lt.1 c).trans (hM.2 hz)
    obtain ⟨ymp, l, wa, p1, p2, p3, p4, p5⟩ := pos
    cases ys_neg with
    | nil =>
      refine ⟨l, high, wa, vb, ?_, p2, hh, p3, by simp⟩
      simp only [best_bounding_bounds, e1, e2, Py.ok_bind, p1, boundsNeg]
      rw [if_neg (not_lt.2 (mul_neg_of_pos_of_neg p4 h1).le)]
    | cons y ys =>
      obtain ⟨w, rfl, hw⟩ := p5 (hlist.resolve_left (by simp))
      have hm := foldl_max_mem ys y
      obtain ⟨x, hx, hfx⟩ := history_get hn hm
      refine ⟨l, x, wa, maxL y ys, ?_, p2, hfx, p3, by simpa using maxL_greatest y ys⟩
      simp only [best_bounding_bounds, e1, e2, Py.ok_bind, p1, boundsNeg, hx, if_neg (not_lt.2 p4.le), if_pos (show w > vb by linarith)]
      rw [if_neg (not_lt.2 (mul_neg_of_pos_of_neg p4 (hneg _ hm)).le)]
  · subst hp'
    cases ys_neg with
    | nil => exact absurd rfl hn'
    | cons y ys =>
      obtain ⟨x, hx, hfx⟩ := history_get hn (foldl_max_mem ys y)
      simp only [best_bounding_bounds, e1, e2, Py.ok_bind, boundsPos, boundsNeg, hx, if_neg (not_lt.2 h0.le)]
      rfl

/-- C82 (finding): for a decreasing objective (`f(low) > 0`) the negative side is compared with the wrong variable, and a bracket
end can be replaced by one further from the root: here `(0, 10)` with values `(5, -1)` becomes `(1, 8)` with values `(2, -3)`. -/
theorem C82_best_bounds_worse : best_bounding_bounds (0 : ℚ) 10 (fun _ => .error .exception) [1] [2] [8] [-3] (some 5) (some (-1)) =
    .ok (1, 8, 2, -3) := by decide +kernel

/-- C82 (finding): omitting the positive history, which the documentation allows, then raises `UnboundLocalError`. -/
theorem C82_best_bounds_unbound : best_bounding_bounds (0 : ℚ) 10 (fun _ => .error .exception) [] [] [8] [-3] (some 5) (some (-1)) =
    .error .unboundLocalError := by decide +kernel

example : best_bounding_bounds (0 : ℚ) 10 (fun x => .ok (x - 4)) [6, 5] [2, 1] [1] [-3] none none = .ok (1, 5, -3, 1) := by
  decide +kernel

end Generic

/-! ### ridder -/
noncomputable section

theorem abs_copysign (x y : ℝ) : |copysign x y| = |x| := by
  unfold copysign; split_ifs <;> simp

theorem ridderPoint_spec (f : ℝ → Py ℝ) (a b fa fb tol : ℝ) (h : fa * fb < 0) :
    (∀ e, ridderPoint f a b fa fb tol = .error e → f (a + 1 / 2 * (b - a)) = .error e) ∧
    ∀ xm fm xn, ridderPoint f a b fa fb tol = .ok (xm, fm, xn) → xm = a + 1 / 2 * (b - a) ∧ f xm = .ok fm ∧
      (tol ≤ |b - a| → |xn - xm| ≤ 1 / 2 * |b - a|) := by
  simp only [ridderPoint]
  rcases hf : f (a + 1 / 2 * (b - a)) with e | fm
  · simp only [Py.error_bind]
    refine ⟨fun e' he => ?_, by rintro _ _ _ ⟨⟩⟩
    cases he; rfl
  have hp : 0 < fm * fm - fa * fb := by nlinarith [mul_self_nonneg fm]
  have hsq : √(fm * fm - fa * fb) ≠ 0 := (Real.sqrt_pos.mpr hp).ne'
  simp only [Py.ok_bind, psqrt_ok hp.le, pdiv_ok hsq, Py.pure_eq]
  refine ⟨by rintro _ ⟨⟩, ?_⟩
  intro xm fm' xn he
  simp only [Except.ok.injEq, Prod.mk.injEq] at he
  obtain ⟨rfl, rfl, rfl⟩ := he
  refine ⟨rfl, hf, fun ht => ?_⟩
  rw [show ∀ x c : ℝ, x - c - x = -c from fun x c => by ring, abs_neg, abs_copysign]
  have hdm : |1 / 2 * (b - a)| = 1 / 2 * |b - a| := by rw [abs_mul, abs_of_pos (by norm_num : (0 : ℝ) < 1 / 2)]
  have hdn : |copysign (1 / √(fm * fm - fa * fb)) (fb - fa) * fm * (1 / 2 * (b - a))| ≤ 1 / 2 * |b - a| := by
    rw [abs_mul, abs_mul, abs_copysign, hdm]
    have h1 : |1 / √(fm * fm - fa * fb)| * |fm| ≤ 1 := by
      rw [abs_of_pos (by positivity), one_div_mul_eq_div, div_le_one (Real.sqrt_pos.mpr hp)]
      apply Real.abs_le_sqrt
      nlinarith
    nlinarith [abs_nonneg (b - a)]
  rw [abs_of_nonneg]
  · exact (min_le_right _ _).trans hdn
  · refine le_min ?_ (abs_nonneg _)
    rw [hdm]; linarith

theorem ridderLoop_spec (f : ℝ → Py ℝ) (xtol rtol lo hi : ℝ) (n : ℕ) : ∀ (a b fa fb tol r : ℝ),
    f a = .ok fa → f b = .ok fb → fa * fb < 0 → ridderLoop f xtol rtol n a b fa fb tol = .ok r →
    ∃ v, f r = .ok v ∧ (v = 0 ∨ ∃ c vc, f c = .ok vc ∧ v * vc < 0 ∧ |r - c| < xtol + rtol * r ∧
        (tol ≤ |b - a| → a ∈ uIcc lo hi → b ∈ uIcc lo hi → c ∈ uIcc lo hi)) ∧
      (tol ≤ |b - a| → a ∈ uIcc lo hi → b ∈ uIcc lo hi → r ∈ uIcc lo hi) := by
  induction n with
  | zero => intro a b fa fb tol r _ _ _ h; simp [ridderLoop] at h
  | succ n ih =>
    intro a b fa fb tol r ha hb hab h
    rw [ridderLoop, Py.bind_eq_ok] at h
    obtain ⟨⟨xm, fm, xn⟩, hp, h⟩ := h
    simp only [Py.bind_eq_ok] at h
    obtain ⟨fn, hn, h⟩ := h
    obtain ⟨p1, p2, p3⟩ := (ridderPoint_spec f a b fa fb tol hab).2 xm fm xn hp
    have hxm : a ∈ uIcc lo hi → b ∈ uIcc lo hi → xm ∈ uIcc lo hi := by
      intro h1 h2
      refine uIcc_subset_uIcc h1 h2 ?_
      rw [p1, mem_uIcc]
      rcases le_total a b with hh | hh
      · left; constructor <;> linarith
      · right; constructor <;> linarith
    have hxn : tol ≤ |b - a| → a ∈ uIcc lo hi → b ∈ uIcc lo hi → xn ∈ uIcc lo hi := by
      intro h1 h2 h3
      refine uIcc_subset_uIcc h2 h3 ?_
      have hd := p3 h1
      obtain ⟨d1, d2⟩ := abs_le.mp hd
      rw [mem_uIcc]
      rcases le_total a b with hh | hh
      · rw [abs_of_nonneg (by linarith)] at d1 d2; left; constructor <;> linarith
      · rw [abs_of_nonpos (by linarith)] at d1 d2; right; constructor <;> linarith
    have hfa : fa ≠ 0 := by rintro rfl; simp at hab
    by_cases h0 : fn = 0
    · rw [if_pos (Or.inl h0)] at h
      cases h
      exact ⟨fn, hn, Or.inl h0, hxn⟩
    -- the bracket kept by this pass
    obtain ⟨a', fa', b', fb', hbr, ha', hb', hab', hsub, hend⟩ : ∃ a' fa' b' fb', (if fn * fm < 0 then (xn, fn, xm, fm)
        else if fn * fa < 0 then (a, fa, xn, fn) else (xn, fn, b, fb)) = (a', fa', b', fb') ∧ f a' = .ok fa' ∧ f b' = .ok fb' ∧
        fa' * fb' < 0 ∧ (tol ≤ |b - a| → a ∈ uIcc lo hi → b ∈ uIcc lo hi → a' ∈ uIcc lo hi ∧ b' ∈ uIcc lo hi) ∧
        ((a' = xn ∧ fa' = fn) ∨ (b' = xn ∧ fb' = fn)) := by
      by_cases c1 : fn * fm < 0
      · exact ⟨_, _, _, _, if_pos c1, hn, p2, c1, fun h1 h2 h3 => ⟨hxn h1 h2 h3, hxm h2 h3⟩, Or.inl ⟨rfl, rfl⟩⟩
      rw [if_neg c1]
      by_cases c2 : fn * fa < 0
      · exact ⟨_, _, _, _, if_pos c2, ha, hn, by rw [mul_comm]; exact c2, fun h1 h2 h3 => ⟨h2, hxn h1 h2 h3⟩, Or.inr ⟨rfl, rfl⟩⟩
      refine ⟨_, _, _, _, if_neg c2, hn, hb, ?_, fun h1 h2 h3 => ⟨hxn h1 h2 h3, h3⟩, Or.inl ⟨rfl, rfl⟩⟩
      have hp : 0 < fn * fa := lt_of_le_of_ne (not_lt.mp c2) (mul_ne_zero h0 hfa).symm
      have : (fn * fb) * fa ^ 2 < 0 := by have := mul_neg_of_pos_of_neg hp hab; nlinarith
      have := sq_pos_of_ne_zero hfa
      nlinarith
    rw [hbr] at h
    simp only at h
    by_cases ht : |b' - a'| < xtol + rtol * xn
    · rw [if_pos (Or.inr ht)] at h
      cases h
      refine ⟨fn, hn, Or.inr ?_, hxn⟩
      rcases hend with ⟨rfl, rfl⟩ | ⟨rfl, rfl⟩
      · exact ⟨b', fb', hb', hab', by rw [abs_sub_comm]; exact ht, fun h1 h2 h3 => (hsub h1 h2 h3).2⟩
      · exact ⟨a', fa', ha', by rw [mul_comm]; exact hab', ht, fun h1 h2 h3 => (hsub h1 h2 h3).1⟩
    · rw [if_neg (by rintro (hh | hh); exacts [h0 hh, ht hh])] at h
      obtain ⟨v, v1, v2, v3⟩ := ih a' b' fa' fb' _ r ha' hb' hab' h
      have htt := not_lt.mp ht
      refine ⟨v, v1, v2.imp id ?_, fun h1 h2 h3 => v3 htt (hsub h1 h2 h3).1 (hsub h1 h2 h3).2⟩
      rintro ⟨c, vc, c1, c2, c3, c4⟩
      exact ⟨c, vc, c1, c2, c3, fun h1 h2 h3 => c4 htt (hsub h1 h2 h3).1 (hsub h1 h2 h3).2⟩

theorem ridderLoop_err (f : ℝ → Py ℝ) (xtol rtol : ℝ) (n : ℕ) : ∀ (a b fa fb tol : ℝ) (e : PyErr),
    f a = .ok fa → f b = .ok fb → fa * fb < 0 → ridderLoop f xtol rtol n a b fa fb tol = .error e →
    e = .unconvergedError ∨ ∃ x, f x = .error e := by
  induction n with
  | zero => intro a b fa fb tol e _ _ _ h; left; simpa [ridderLoop, eq_comm] using h
  | succ n ih =>
    intro a b fa fb tol e ha hb hab h
    rw [ridderLoop] at h
    rcases hp : ridderPoint f a b fa fb tol with e' | ⟨xm, fm, xn⟩
    · rw [hp] at h
      cases h
      exact Or.inr ⟨_, (ridderPoint_spec f a b fa fb tol hab).1 _ hp⟩
    obtain ⟨p1, p2, -⟩ := (ridderPoint_spec f a b fa fb tol hab).2 xm fm xn hp
    simp only [hp, Py.ok_bind] at h
    rcases hn : f xn with e' | fn
    · rw [hn] at h
      cases h
      exact Or.inr ⟨_, hn⟩
    simp only [hn, Py.ok_bind] at h
    have hfa : fa ≠ 0 := by rintro rfl; simp at hab
    by_cases h0 : fn = 0
    · rw [if_pos (Or.inl h0)] at h; cases h
    by_cases c1 : fn * fm < 0
    · simp only [if_pos c1] at h
      split_ifs at h
      exact ih _ _ _ _ _ _ hn p2 c1 h
    simp only [if_neg c1] at h
    by_cases c2 : fn * fa < 0
    · simp only [if_pos c2] at h
      split_ifs at h
      exact ih _ _ _ _ _ _ ha hn (by rw [mul_comm]; exact c2) h
    simp only [if_neg c2] at h
    split_ifs at h
    refine ih _ _ _ _ _ _ hn hb ?_ h
    have hp : 0 < fn * fa := lt_of_le_of_ne (not_lt.mp c2) (mul_ne_zero h0 hfa).symm
    have : (fn * fb) * fa ^ 2 < 0 := by have := mul_neg_of_pos_of_neg hp hab; nlinarith
    have := sq_pos_of_ne_zero hfa
    nlinarith

/-- C26: `ridder` on any objective: same-signed ends raise `ValueError`; a returned point is an exact zero or the end of a
bracket on which the objective strictly changes sign, narrower than `xtol + rtol r`; if the starting bracket is at least as
wide as the starting tolerance, the point and that bracket lie in `[a, b]`; apart from the objective's own errors the only
failure is `UnconvergedError` (no square root of a negative, no division by zero). -/
theorem C26_ridder (f : ℝ → Py ℝ) (a b xtol rtol : ℝ) (maxiter : ℕ) (va vb : ℝ) (ha : f a = .ok va) (hb : f b = .ok vb) :
    (0 < va * vb → ridder f a b xtol rtol maxiter = .error .valueError) ∧
    (va * vb ≤ 0 →
      (∀ r, ridder f a b xtol rtol maxiter = .ok r → ∃ v, f r = .ok v ∧
        (v = 0 ∨ ∃ c vc, f c = .ok vc ∧ v * vc < 0 ∧ |r - c| < xtol + rtol * r ∧
          (xtol + rtol * min |b| |a| ≤ |b - a| → c ∈ uIcc a b)) ∧
        (xtol + rtol * min |b| |a| ≤ |b - a| → r ∈ uIcc a b)) ∧
      (∀ e, ridder f a b xtol rtol maxiter = .error e → e = .unconvergedError ∨ ∃ x, f x = .error e)) := by
  simp only [ridder, ha, hb, Py.ok_bind]
  refine ⟨fun h => if_pos h, fun h => ?_⟩
  rw [if_neg (not_lt.mpr h)]
  by_cases h1 : va = 0
  · rw [if_pos h1]
    refine ⟨fun r hr => ?_, fun e he => by cases he⟩
    cases hr; exact ⟨va, ha, Or.inl h1, fun _ => left_mem_uIcc⟩
  rw [if_neg h1]
  by_cases h2 : vb = 0
  · rw [if_pos h2]
    refine ⟨fun r hr => ?_, fun e he => by cases he⟩
    cases hr; exact ⟨vb, hb, Or.inl h2, fun _ => right_mem_uIcc⟩
  rw [if_neg h2]
  have hneg : va * vb < 0 := lt_of_le_of_ne h (mul_ne_zero h1 h2)
  refine ⟨fun r hr => ?_, fun e he => ridderLoop_err f xtol rtol maxiter a b va vb _ e ha hb hneg he⟩
  obtain ⟨v, v1, v2, v3⟩ := ridderLoop_spec f xtol rtol a b maxiter a b va vb _ r ha hb hneg hr
  refine ⟨v, v1, v2.imp id ?_, fun h => v3 h left_mem_uIcc right_mem_uIcc⟩
  rintro ⟨c, vc, c1, c2, c3, c4⟩
  exact ⟨c, vc, c1, c2, c3, fun h => c4 h left_mem_uIcc right_mem_uIcc⟩

/-- C26 (finding): the width condition above is needed: with a tolerance wider than the bracket, `ridder` returns `-4` for the
root `1/4` of `x - 1/4` bracketed by `[0, 1]`. -/
theorem C26_ridder_leaves_bracket : ridder (fun x => .ok (x - 1 / 4)) 0 1 10 0 1 = .ok (-4) := by
  have hs : √(1 / 4 : ℝ) = 1 / 2 := by
    rw [show (1 / 4 : ℝ) = (1 / 2) ^ 2 by norm_num]; exact Real.sqrt_sq (by norm_num)
  simp only [ridder, ridderLoop, ridderPoint, Py.ok_bind, Py.pure_eq]
  norm_num [psqrt, hs, pdiv, copysign, abs_of_pos, abs_of_neg]

/-! ### consequences for continuous functions -/

theorem root_between (g : ℝ → ℝ) (hg : Continuous g) (r c : ℝ) (h : g r * g c < 0) :
    ∃ z ∈ uIcc r c, g z = 0 ∧ |r - z| ≤ |r - c| := by
  have h0 : (0 : ℝ) ∈ uIcc (g r) (g c) := by
    rw [mem_uIcc]
    rcases lt_or_ge (g r) 0 with h1 | h1
    · left; constructor <;> nlinarith
    · right; constructor <;> nlinarith
  obtain ⟨z, hz, hz0⟩ := intermediate_value_uIcc (hg.continuousOn) h0
  refine ⟨z, hz, hz0, ?_⟩
  rw [mem_uIcc] at hz
  rcases hz with ⟨h1, h2⟩ | ⟨h1, h2⟩
  · rw [abs_sub_comm r z, abs_sub_comm r c, abs_of_nonneg (by linarith), abs_of_nonneg (by linarith)]; linarith
  · rw [abs_of_nonneg (by linarith), abs_of_nonneg (by linarith)]; linarith

/-- C25: for a continuous function whose end values differ in sign, `0 < xtol`, `0 ≤ rtol < 1` and enough iterations, `bisect`
returns a point of `[a, b]` within `xtol / (1 - rtol)` of a true root in `[a, b]`. -/
theorem C25_bisect_root (g : ℝ → ℝ) (hg : Continuous g) (a b xtol rtol : ℝ) (maxiter : ℕ) (hx : 0 < xtol) (hr : 0 ≤ rtol)
    (hr1 : rtol < 1) (hs : g a * g b ≤ 0) (hn : 0 < maxiter) (hw : |b - a| < xtol * 2 ^ maxiter) :
    ∃ r, bisect (fun x => .ok (g x)) a b xtol rtol maxiter none = .ok r ∧ r ∈ uIcc a b ∧
      ∃ z ∈ uIcc a b, g z = 0 ∧ |r - z| < xtol / (1 - rtol) := by
  obtain ⟨r, h⟩ := C25_bisect_converges g a b xtol rtol maxiter hx hr hs hn hw
  obtain ⟨r1, v, r2, r3⟩ := C25_bisect_post _ a b xtol rtol maxiter none r h
  cases r2
  refine ⟨r, h, r1, ?_⟩
  rcases r3 with r3 | ⟨c, c1, vc, c2, c3, c4, -⟩
  · exact ⟨r, r1, r3, by simp only [sub_self, abs_zero]; exact div_pos hx (by linarith)⟩
  · cases c2
    obtain ⟨z, z1, z2, z3⟩ := root_between g hg r c c3
    refine ⟨z, uIcc_subset_uIcc r1 c1 z1, z2, lt_of_le_of_lt z3 ?_⟩
    rw [lt_div_iff₀ (by linarith)]; linarith

/-- C26: for a continuous function, a point returned by `brenth` is within `xtol + rtol |r|` of a true root inside the bracket. -/
theorem C26_brenth_root (g : ℝ → ℝ) (hg : Continuous g) (xa xb xtol rtol : ℝ) (maxiter : ℕ) (q : Bool) (hx : 0 < xtol)
    (hr : 0 ≤ rtol) (r : ℝ) (h : brenth (fun x => .ok (g x)) xa xb xtol rtol maxiter none q none none = .ok r) :
    r ∈ uIcc xa xb ∧ ∃ z ∈ uIcc xa xb, g z = 0 ∧ |r - z| < xtol + rtol * |r| := by
  have spec := C26_brenth (fun x => .ok (g x)) xa xb xtol rtol maxiter q none none (g xa) (g xb) hx hr rfl rfl (by simp) (by simp)
  rcases lt_or_ge 0 (g xa * g xb) with hs | hs
  · rw [spec.1 hs] at h; cases h
  obtain ⟨r1, v, r2, r3⟩ := (spec.2 hs).1 r h
  cases r2
  refine ⟨r1, ?_⟩
  rcases r3 with r3 | ⟨c, c1, vc, c2, c3, c4⟩
  · exact ⟨r, r1, r3, by simp only [sub_self, abs_zero]; have := mul_nonneg hr (abs_nonneg r); linarith⟩
  · cases c2
    obtain ⟨z, z1, z2, z3⟩ := root_between g hg r c c3
    exact ⟨z, uIcc_subset_uIcc r1 c1 z1, z2, lt_of_le_of_lt z3 c4⟩

/-- C26: the same for `ridder`, when the starting bracket is at least as wide as the starting tolerance. -/
theorem C26_ridder_root (g : ℝ → ℝ) (hg : Continuous g) (a b xtol rtol : ℝ) (maxiter : ℕ) (r : ℝ)
    (hw : xtol + rtol * min |b| |a| ≤ |b - a|)
    (h : ridder (fun x => .ok (g x)) a b xtol rtol maxiter = .ok r) :
    r ∈ uIcc a b ∧ ∃ z ∈ uIcc a b, g z = 0 ∧ (z = r ∨ |r - z| < xtol + rtol * r) := by
  have spec := C26_ridder (fun x => .ok (g x)) a b xtol rtol maxiter (g a) (g b) rfl rfl
  rcases lt_or_ge 0 (g a * g b) with hs | hs
  · rw [spec.1 hs] at h; cases h
  obtain ⟨v, r2, r3, r1⟩ := (spec.2 hs).1 r h
  cases r2
  have r1 := r1 hw
  refine ⟨r1, ?_⟩
  rcases r3 with r3 | ⟨c, vc, c2, c3, c4, c1⟩
  · exact ⟨r, r1, r3, Or.inl rfl⟩
  · cases c2
    obtain ⟨z, z1, z2, z3⟩ := root_between g hg r c c3
    exact ⟨z, uIcc_subset_uIcc r1 (c1 hw) z1, z2, Or.inr (lt_of_le_of_lt z3 c4)⟩

/-! ### the theorems at work -/
example : bisect (fun x : ℚ => .ok (x * x - 2)) 1 2 (1/10) 0 10 none = .ok (23/16) := by decide +kernel
example : bisect (fun x : ℚ => .ok (x * x - 2)) 1 2 (1/10) 0 3 none = .error .unconvergedError := by decide +kernel
example : ∃ r, brenth (fun x : ℚ => .ok (x * x - 2)) 1 2 (1/10) 0 10 none false none none = .ok r ∧ (r * r - 2) ^ 2 < 1 / 10 := by
  refine ⟨17/12, ?_, ?_⟩ <;> decide +kernel
example : (0 : ℚ) ≤ 1/10 ∧ ((1 : ℚ) * 1 - 2) * (2 * 2 - 2) ≤ 0 := by decide +kernel
end
end Verif
