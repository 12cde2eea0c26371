import Verif.Model.Splines
import Verif.Lemmas.ListIdx
import Verif.Lemmas.LU
import Verif.Props.Interp
import Verif.Props.Translate

/-! # C30: B-spline evaluation -/

namespace Verif.Splines
open Verif.Translate (idx idx_ok)
open Verif.Seq (pyGet)
open Verif.Arrays

/-- Loop rule for a `for j in range(n)` body that never raises while the invariant holds. -/
theorem foldlM_range_ok {σ : Type _} (f : σ → ℕ → Py σ) (P : ℕ → σ → Prop) (n : ℕ) (s0 : σ) (h0 : P 0 s0)
    (hstep : ∀ j < n, ∀ s, P j s → ∃ s', f s j = .ok s' ∧ P (j + 1) s') :
    ∃ s', (List.range n).foldlM f s0 = .ok s' ∧ P n s' := by
  induction n with
  | zero => exact ⟨s0, rfl, h0⟩
  | succ n ih =>
    obtain ⟨s, e, hp⟩ := ih fun j hj => hstep j (by omega)
    obtain ⟨s', e', hp'⟩ := hstep n (by omega) s hp
    refine ⟨s', ?_, hp'⟩
    rw [List.range_succ, List.foldlM_append, e]
    simp only [Py.ok_bind, List.foldlM_cons, List.foldlM_nil, e']
    rfl

section Spec
variable {K : Type _} [Field K] [LinearOrder K]

/-- Specification: B-spline basis functions by the Cox-de Boor recursion, `0/0` read as `0`; `t : ℕ → K` are the knots. -/
def bspline (t : ℕ → K) : ℕ → ℕ → K → K
  | 0, i, x => if t i ≤ x ∧ x < t (i + 1) then 1 else 0
  | k + 1, i, x => (x - t i) / (t (i + k + 1) - t i) * bspline t k i x +
      (t (i + k + 2) - x) / (t (i + k + 2) - t (i + 1)) * bspline t k (i + 1) x

/-- Specification: the polynomial that the `i`-th basis function is on the knot span `m` (continued to all `x`) -/
def bpiece (t : ℕ → K) (m : ℕ) : ℕ → ℕ → K → K
  | 0, i, _ => if i = m then 1 else 0
  | k + 1, i, x => (x - t i) / (t (i + k + 1) - t i) * bpiece t m k i x +
      (t (i + k + 2) - x) / (t (i + k + 2) - t (i + 1)) * bpiece t m k (i + 1) x

end Spec

section Basis
variable {K : Type _} [Field K] [LinearOrder K] [IsStrictOrderedRing K]

theorem bpiece_eq_bspline (t : ℕ → K) (ht : Monotone t) {m : ℕ} {x : K} (h1 : t m ≤ x) (h2 : x < t (m + 1)) (k : ℕ) : ∀ i,
    bpiece t m k i x = bspline t k i x := by
  induction k with
  | zero =>
    intro i
    simp only [bpiece, bspline]
    by_cases hi : i = m
    · subst hi; rw [if_pos rfl, if_pos ⟨h1, h2⟩]
    · rw [if_neg hi, if_neg]
      rintro ⟨h3, h4⟩
      rcases lt_or_gt_of_ne hi with h | h
      · exact absurd (h4.trans_le ((ht (show i + 1 ≤ m by omega)).trans h1)) (lt_irrefl _)
      · exact absurd (h2.trans_le ((ht (show m + 1 ≤ i by omega)).trans h3)) (lt_irrefl _)
  | succ k ih => intro i; simp only [bpiece, bspline, ih]

theorem bpiece_support (t : ℕ → K) (m : ℕ) (x : K) (k : ℕ) : ∀ i, (m < i ∨ i + k < m) → bpiece t m k i x = 0 := by
  induction k with
  | zero => intro i h; simp only [bpiece]; rw [if_neg (by omega)]
  | succ k ih => intro i h; simp only [bpiece]; rw [ih i (by omega), ih (i + 1) (by omega)]; simp

/-- knots around the span `m` used for degree `k`: nondecreasing, with a nonempty span -/
structure Span (t : ℕ → K) (m k : ℕ) : Prop where
  mono : Monotone t
  lt : t m < t (m + 1)

theorem Span.den {t : ℕ → K} {m k : ℕ} (h : Span t m k) {p q : ℕ} (hp : p ≤ m) (hq : m + 1 ≤ q) : 0 < t q - t p := by
  have h1 := h.mono hp; have h2 := h.mono hq; have := h.lt; linarith

theorem bpiece_nonneg (t : ℕ → K) {m k : ℕ} (hs : Span t m k) {x : K} (h1 : t m ≤ x) (h2 : x ≤ t (m + 1)) (j : ℕ) : ∀ i,
    0 ≤ bpiece t m j i x := by
  induction j with
  | zero => intro i; simp only [bpiece]; split_ifs <;> simp
  | succ j ih =>
    intro i
    simp only [bpiece]
    by_cases hi : i ≤ m ∧ m ≤ i + j
    · have d1 := hs.den hi.1 (show m + 1 ≤ i + j + 1 by omega)
      have a1 : 0 ≤ x - t i := by have := hs.mono hi.1; linarith
      have r1 : 0 ≤ (x - t i) / (t (i + j + 1) - t i) * bpiece t m j i x := mul_nonneg (div_nonneg a1 d1.le) (ih i)
      by_cases hi2 : i + 1 ≤ m
      · have d2 := hs.den hi2 (show m + 1 ≤ i + j + 2 by omega)
        have a2 : 0 ≤ t (i + j + 2) - x := by have := hs.mono (show m + 1 ≤ i + j + 2 by omega); linarith
        exact add_nonneg r1 (mul_nonneg (div_nonneg a2 d2.le) (ih (i + 1)))
      · rw [bpiece_support t m x j (i + 1) (by omega), mul_zero, add_zero]; exact r1
    · rw [bpiece_support t m x j i (by omega), mul_zero, zero_add]
      by_cases hi2 : i + 1 ≤ m ∧ m ≤ i + 1 + j
      · have d2 := hs.den hi2.1 (show m + 1 ≤ i + j + 2 by omega)
        have a2 : 0 ≤ t (i + j + 2) - x := by have := hs.mono (show m + 1 ≤ i + j + 2 by omega); linarith
        exact mul_nonneg (div_nonneg a2 d2.le) (ih (i + 1))
      · rw [bpiece_support t m x j (i + 1) (by omega), mul_zero]

theorem bpiece_sum (t : ℕ → K) {m k : ℕ} (hs : Span t m k) (x : K) (j : ℕ) : j ≤ m →
    ∑ i ∈ Finset.range (j + 1), bpiece t m j (m - j + i) x = 1 := by
  induction j with
  | zero => intro _; simp [bpiece]
  | succ j ih =>
    intro hj
    rw [← ih (by omega)]
    have e : ∀ i, bpiece t m (j + 1) (m - (j + 1) + i) x =
        (x - t (m - (j + 1) + i)) / (t (m + i) - t (m - (j + 1) + i)) * bpiece t m j (m - (j + 1) + i) x +
        (t (m + 1 + i) - x) / (t (m + 1 + i) - t (m - j + i)) * bpiece t m j (m - j + i) x := by
      intro i
      simp only [bpiece]
      rw [show m - (j + 1) + i + j + 1 = m + i by omega, show m - (j + 1) + i + j + 2 = m + 1 + i by omega,
        show m - (j + 1) + i + 1 = m - j + i by omega]
    simp only [e, Finset.sum_add_distrib]
    rw [Finset.sum_range_succ', Finset.sum_range_succ (fun i => (t (m + 1 + i) - x) / _ * _)]
    rw [bpiece_support t m x j (m - (j + 1) + 0) (by omega), bpiece_support t m x j (m - j + (j + 1)) (by omega)]
    simp only [mul_zero, add_zero]
    rw [← Finset.sum_add_distrib]
    refine Finset.sum_congr rfl fun i hi => ?_
    have hi := Finset.mem_range.mp hi
    have d := hs.den (show m - j + i ≤ m by omega) (show m + 1 ≤ m + 1 + i by omega)
    rw [show m - (j + 1) + (i + 1) = m - j + i by omega, show m + (i + 1) = m + 1 + i by omega]
    field_simp
    ring

/-! ### fpbspl -/

/-- the knot list as a nondecreasing function, extended by its last entry -/
def knots (t : List K) (i : ℕ) : K := t.getD (min i (t.length - 1)) 0

theorem knots_lt {t : List K} {i : ℕ} (h : i < t.length) : knots t i = t.getD i 0 := by
  rw [knots, min_eq_left (by omega)]

theorem pyGet_knots {t : List K} {i : ℕ} (h : i < t.length) : pyGet t (i : ℤ) = .ok (knots t i) := by
  rw [knots_lt h]; exact Verif.pyGet_nat t i h

theorem fpPass_spec {t : List K} {x : K} {l j : ℕ} {h : List K} (hs : Span (knots t) (l - 1) 0) (hj : 0 < j) (hjl : j < l)
    (hlt : l + j ≤ t.length) (hlen : j < h.length)
    (hh : ∀ i < j, h.getD i 0 = bpiece (knots t) (l - 1) (j - 1) (l - j + i) x) :
    ∃ h', fpPass t x l h j = .ok h' ∧ h'.length = h.length ∧
      ∀ i ≤ j, h'.getD i 0 = bpiece (knots t) (l - 1) j (l - 1 - j + i) x := by
  obtain ⟨j, rfl⟩ : ∃ j', j = j' + 1 := ⟨j - 1, by omega⟩
  simp only [Nat.add_sub_cancel] at hh
  let B := fun i => bpiece (knots t) (l - 1) j i x
  let F := fun i => (x - knots t (l - 1 - (j + 1) + i)) / (knots t (l - 1 + i) - knots t (l - 1 - (j + 1) + i)) * B (l - 1 - (j + 1) + i)
  have hF : ∀ i, bpiece (knots t) (l - 1) (j + 1) (l - 1 - (j + 1) + i) x =
      F i + (knots t (l + i) - x) / (knots t (l + i) - knots t (l - (j + 1) + i)) * B (l - (j + 1) + i) := by
    intro i
    simp only [bpiece, F, B]
    rw [show l - 1 - (j + 1) + i + j + 1 = l - 1 + i by omega, show l - 1 - (j + 1) + i + j + 2 = l + i by omega,
      show l - 1 - (j + 1) + i + 1 = l - (j + 1) + i by omega]
  obtain ⟨h', e, h1, h2, h3⟩ := foldlM_range_ok (fpInner t x l (j + 1) (h.take (j + 1)))
    (fun i g => g.length = h.length ∧ (∀ p < i, g.getD p 0 = bpiece (knots t) (l - 1) (j + 1) (l - 1 - (j + 1) + p) x) ∧
      g.getD i 0 = F i) (j + 1) (h.set 0 0) (by
        refine ⟨by simp, by simp, ?_⟩
        simp only [F, B]
        rw [getD_set', if_pos ⟨rfl, by omega⟩, bpiece_support _ _ _ _ _ (by omega), mul_zero]) (by
      intro i hi g hg
      obtain ⟨g1, g2, g3⟩ := hg
      have den := hs.den (show l - (j + 1) + i ≤ l - 1 by omega) (show l - 1 + 1 ≤ l + i by omega)
      have ei : ((l + i : ℕ) - ((j + 1 : ℕ) : ℤ)) = ((l - (j + 1) + i : ℕ) : ℤ) := by omega
      have htk : (h.take (j + 1)).getD i 0 = B (l - (j + 1) + i) := by
        rw [getD_take', if_pos hi, hh i hi]
      refine ⟨_, by
        simp only [fpInner]
        rw [pyGet_knots (show l + i < t.length by omega), ei, pyGet_knots (show l - (j + 1) + i < t.length by omega),
          idx_ok (0 : K) (show i < (h.take (j + 1)).length by simp; omega), htk]
        simp only [Py.ok_bind, pdiv_ok den.ne']; rfl, by simp [g1], ?_, ?_⟩
      · intro p hp
        rw [getD_set', if_neg (by omega), getD_set']
        by_cases hpi : i = p
        · subst hpi
          rw [if_pos ⟨rfl, by omega⟩, g3, hF]
          ring
        · rw [if_neg (by omega)]
          exact g2 p (by omega)
      · rw [getD_set', if_pos ⟨rfl, by simp; omega⟩]
        simp only [F]
        rw [show l - 1 - (j + 1) + (i + 1) = l - (j + 1) + i by omega, show l - 1 + (i + 1) = l + i by omega]
        ring)
  refine ⟨h', e, h1, fun i hi => ?_⟩
  rcases Nat.lt_or_ge i (j + 1) with c | c
  · exact h2 i c
  · obtain rfl : i = j + 1 := by omega
    rw [h3, hF]
    simp only [B]
    rw [bpiece_support _ _ _ _ (l - (j + 1) + (j + 1)) (by omega), mul_zero, add_zero]

theorem fpbspl_spec {t : List K} {x : K} {k l : ℕ} {h : List K} (hs : Span (knots t) (l - 1) 0) (hkl : k < l) (hlt : l + k ≤ t.length)
    (hlen : k < h.length) :
    ∃ h', fpbspl t k x l h = .ok h' ∧ h'.length = h.length ∧
      ∀ i ≤ k, h'.getD i 0 = bpiece (knots t) (l - 1) k (l - 1 - k + i) x := by
  obtain ⟨h', e, h1, h2⟩ := foldlM_range_ok (fun h j => fpPass t x l h (j + 1))
    (fun j g => g.length = h.length ∧ ∀ i ≤ j, g.getD i 0 = bpiece (knots t) (l - 1) j (l - 1 - j + i) x) k (h.set 0 1) (by
      refine ⟨by simp, fun i hi => ?_⟩
      obtain rfl : i = 0 := by omega
      rw [getD_set', if_pos ⟨rfl, by omega⟩]
      simp [bpiece]) (by
      intro j hj g ⟨g1, g2⟩
      obtain ⟨g', e, a1, a2⟩ := fpPass_spec (h := g) (j := j + 1) hs (by omega) (by omega) (by omega) (by omega) (by
        intro i hi
        rw [g2 i (by omega)]
        simp only [Nat.add_sub_cancel]
        rw [show l - 1 - j + i = l - (j + 1) + i by omega])
      exact ⟨g', e, by rw [a1, g1], a2⟩)
  exact ⟨h', e, h1, h2⟩

/-- C30: for every degree `k`, nondecreasing knot list and nonempty knot span `[t[l-1], t[l]]` with `k` knots on either side, `fpbspl`
succeeds for every `x` and fills `h` with the B-spline basis functions of the Cox-de Boor recursion; they sum to one, and are
nonnegative when `x` is in the span. -/
theorem C30_fpbspl {t : List K} {k l : ℕ} (x : K) {h : List K} (ht : Monotone (knots t)) (hkl : k < l) (hlt : l + k ≤ t.length)
    (hlen : k < h.length) (hne : t.getD (l - 1) 0 < t.getD l 0) (hl : l < t.length) :
    ∃ h', fpbspl t k x l h = .ok h' ∧ ∑ i ∈ Finset.range (k + 1), h'.getD i 0 = 1 ∧
      (t.getD (l - 1) 0 ≤ x → x ≤ t.getD l 0 → ∀ i ≤ k, 0 ≤ h'.getD i 0) ∧
      (t.getD (l - 1) 0 ≤ x → x < t.getD l 0 → ∀ i ≤ k, h'.getD i 0 = bspline (knots t) k (l - 1 - k + i) x) := by
  rw [← knots_lt (show l - 1 < t.length by omega), ← knots_lt hl, show l = l - 1 + 1 by omega, Nat.add_sub_cancel] at *
  have hs : Span (knots t) (l - 1 + 1 - 1) 0 := ⟨ht, hne⟩
  obtain ⟨h', e, h1, h2⟩ := fpbspl_spec (x := x) hs hkl hlt hlen
  rw [Nat.add_sub_cancel] at h2 hs
  refine ⟨h', e, ?_, ?_, ?_⟩
  · rw [← bpiece_sum (knots t) hs x k (by omega)]
    exact Finset.sum_congr rfl fun i hi => h2 i (by have := Finset.mem_range.mp hi; omega)
  · intro a b i hi
    rw [h2 i hi]
    exact bpiece_nonneg (knots t) hs a b k _
  · intro a b i hi
    rw [h2 i hi]
    exact bpiece_eq_bspline (knots t) ht a b k _

/-! ### the knot search -/

/-- `findSpan` from `l0`: the first index `l ≥ l0` with `arg < t[l]`, capped at `nk1`. -/
theorem findSpan_spec (t : List K) (arg : K) {nk1 : ℕ} (hn : nk1 < t.length) : ∀ fuel l0, l0 ≤ nk1 → nk1 < fuel + l0 →
    ∃ l, findSpan t arg nk1 fuel l0 = .ok l ∧ l0 ≤ l ∧ l ≤ nk1 ∧ (arg < t.getD l 0 ∨ l = nk1) ∧ (∀ p, l0 ≤ p → p < l → t.getD p 0 ≤ arg) := by
  intro fuel
  induction fuel with
  | zero => intro l0 h1 h2; omega
  | succ fuel ih =>
    intro l0 h1 h2
    simp only [findSpan, idx_ok (0 : K) (show l0 < t.length by omega), Py.ok_bind]
    by_cases hc : arg < t.getD l0 0 ∨ l0 = nk1
    · rw [if_pos hc]
      exact ⟨l0, rfl, le_rfl, h1, hc, fun p a b => by omega⟩
    · rw [if_neg hc]
      push Not at hc
      obtain ⟨l, e, a1, a2, a3, a4⟩ := ih (l0 + 1) (by omega) (by omega)
      refine ⟨l, e, by omega, a2, a3, fun p p1 p2 => ?_⟩
      rcases Nat.eq_or_lt_of_le p1 with h | h
      · subst h; exact hc.1
      · exact a4 p (by omega) p2

/-- A clamped knot vector of degree `k` for `n` coefficients: nondecreasing, `n + k + 1` knots, first and last span nonempty. -/
structure Knots (t : List K) (k n : ℕ) : Prop where
  len : t.length = n + k + 1
  enough : k + 1 ≤ n
  mono : Monotone (knots t)
  first : t.getD k 0 < t.getD (k + 1) 0
  last : t.getD (n - 1) 0 < t.getD n 0

/-- the span the search selects -/
theorem span_spec {t : List K} {k n : ℕ} (hk : Knots t k n) (arg : K) :
    ∃ l, findSpan t arg n (t.length + 1) (k + 1) = .ok l ∧ k < l ∧ l ≤ n ∧ Span (knots t) (l - 1) 0 ∧
      (t.getD k 0 ≤ arg → t.getD (l - 1) 0 ≤ arg) ∧ (arg ≤ t.getD n 0 → arg ≤ t.getD l 0) ∧ (arg < t.getD n 0 → arg < t.getD l 0) := by
  have hlen := hk.len; have henough := hk.enough
  obtain ⟨l, e, a1, a2, a3, a4⟩ := findSpan_spec t arg (show n < t.length by omega) (t.length + 1) (k + 1) (by omega) (by omega)
  have hlast := hk.last; have hfirst := hk.first
  refine ⟨l, e, by omega, a2, ⟨hk.mono, ?_⟩, ?_, ?_, ?_⟩
  · rw [knots_lt (show l - 1 < t.length by omega), show l - 1 + 1 = l by omega, knots_lt (show l < t.length by omega)]
    rcases a3 with h | h
    · rcases Nat.eq_or_lt_of_le a1 with h' | h'
      · subst h'; simpa using hfirst
      · exact (a4 (l - 1) (by omega) (by omega)).trans_lt h
    · subst h; exact hlast
  · intro hb
    rcases Nat.eq_or_lt_of_le a1 with h' | h'
    · subst h'; simpa using hb
    · exact a4 (l - 1) (by omega) (by omega)
  · intro hb
    rcases a3 with h | h
    · exact h.le
    · subst h; exact hb
  · intro hb
    rcases a3 with h | h
    · exact h
    · subst h; exact hb

theorem foldl_add_sum (f : ℕ → K) (n : ℕ) (s : K) :
    (List.range n).foldlM (fun sp j => (Except.ok (sp + f j) : Py K)) s = .ok (s + ∑ j ∈ Finset.range n, f j) := by
  induction n with
  | zero => simp
  | succ n ih => rw [List.range_succ, List.foldlM_append, ih]; simp [Finset.sum_range_succ, add_assoc]

theorem foldlM_congr' {σ : Type _} (f g : σ → ℕ → Py σ) (n : ℕ) (h : ∀ j < n, ∀ s, f s j = g s j) (s : σ) :
    (List.range n).foldlM f s = (List.range n).foldlM g s := by
  induction n with
  | zero => rfl
  | succ n ih =>
    rw [List.range_succ, List.foldlM_append, List.foldlM_append, ih fun j hj => h j (by omega)]
    simp only [List.foldlM_cons, List.foldlM_nil, h n (by omega)]

/-- `Σ_i c_i B_i` restricted to the `k+1` functions living on the span -/
theorem sum_support (t : ℕ → K) (c : ℕ → K) {k l n : ℕ} (hk : k < l) (hl : l ≤ n) (x : K) :
    ∑ j ∈ Finset.range (k + 1), c (l - (k + 1) + j) * bpiece t (l - 1) k (l - 1 - k + j) x =
      ∑ i ∈ Finset.range n, c i * bpiece t (l - 1) k i x := by
  have e1 : Finset.range n = Finset.Ico 0 (l - (k + 1)) ∪ (Finset.Ico (l - (k + 1)) l ∪ Finset.Ico l n) := by
    rw [Finset.Ico_union_Ico_eq_Ico (by omega) (by omega), Finset.Ico_union_Ico_eq_Ico (by omega) (by omega)]; simp
  have e2 : ∑ i ∈ Finset.Ico (l - (k + 1)) l, c i * bpiece t (l - 1) k i x = ∑ i ∈ Finset.range n, c i * bpiece t (l - 1) k i x := by
    apply Finset.sum_subset
    · rw [e1]; intro i hi; simp only [Finset.mem_union]; right; left; exact hi
    · intro i _ hi
      rw [bpiece_support t (l - 1) x k i (by simp only [Finset.mem_Ico, not_and_or] at hi; omega), mul_zero]
  rw [← e2, Finset.sum_Ico_eq_sum_range, show l - (l - (k + 1)) = k + 1 by omega]
  exact Finset.sum_congr rfl fun j _ => by rw [show l - 1 - k + j = l - (k + 1) + j by omega]

/-- what `py_splev` returns once the argument has been settled -/
theorem splev_core {t c : List K} {k n : ℕ} (hk : Knots t k n) (hc : n ≤ c.length) (arg : K) {l : ℕ} (hl1 : k < l) (hl2 : l ≤ n)
    (hs : Span (knots t) (l - 1) 0) :
    (do let h ← fpbspl t k arg l (List.replicate (k + 1) 0)
        (List.range (k + 1)).foldlM (fun sp j => do
          let cj ← idx c (l - (k + 1) + j)
          let hj ← idx h j
          return sp + cj * hj) 0 : Py K) = .ok (∑ i ∈ Finset.range n, c.getD i 0 * bpiece (knots t) (l - 1) k i arg) := by
  have hlen := hk.len; have henough := hk.enough
  obtain ⟨h, e, h1, h2⟩ := fpbspl_spec (x := arg) (h := List.replicate (k + 1) 0) hs hl1 (by omega) (by simp)
  rw [e, Py.ok_bind, foldlM_congr' _ (fun sp j => .ok (sp + c.getD (l - (k + 1) + j) 0 * bpiece (knots t) (l - 1) k (l - 1 - k + j) arg))]
  · rw [foldl_add_sum, zero_add, sum_support (knots t) (fun i => c.getD i 0) hl1 hl2]
  · intro j hj s
    simp only [List.length_replicate] at h1
    rw [idx_ok (0 : K) (by omega), Py.ok_bind, idx_ok (0 : K) (by omega), Py.ok_bind, h2 j (by omega)]
    rfl

/-- C30: inside the domain (right end excluded) `py_splev` is the sum of coefficients times B-spline basis functions, for every degree,
clamped knot vector, coefficient list and `ext`. -/
theorem C30_splev {t c : List K} {k n : ℕ} (hk : Knots t k n) (hc : n ≤ c.length) (ext : ℕ) {x : K} (h1 : t.getD k 0 ≤ x)
    (h2 : x < t.getD n 0) :
    py_splev x t c k ext = .ok (∑ i ∈ Finset.range n, c.getD i 0 * bspline (knots t) k i x) := by
  have hlen := hk.len; have henough := hk.enough
  obtain ⟨l, e, l1, l2, l3, l4, l5, l6⟩ := span_spec hk x
  have ho : ¬ (x < t.getD k 0 ∨ x > t.getD n 0) := by rintro (h | h) <;> [exact absurd h (not_lt.mpr h1); exact absurd h (not_lt.mpr h2.le)]
  simp only [py_splev, Nat.add_sub_cancel, idx_ok (0 : K) (show k < t.length by omega), show t.length - (k + 1) = n by omega,
    idx_ok (0 : K) (show n < t.length by omega), Py.ok_bind, ho, false_and, if_false, e]
  rw [splev_core hk hc x l1 l2 l3]
  congr 1
  refine Finset.sum_congr rfl fun i _ => ?_
  rw [bpiece_eq_bspline _ hk.mono]
  · rw [knots_lt (by omega)]; exact l4 h1
  · rw [show l - 1 + 1 = l by omega, knots_lt (by omega)]; exact l6 h2

/-- C30: on the whole closed domain the value is a weighted mean of the coefficients: it lies between any lower and upper bound of them. -/
theorem C30_splev_mean {t c : List K} {k n : ℕ} (hk : Knots t k n) (hc : n ≤ c.length) (ext : ℕ) {x : K} (h1 : t.getD k 0 ≤ x)
    (h2 : x ≤ t.getD n 0) (lo hi : K) (hlo : ∀ i < n, lo ≤ c.getD i 0) (hhi : ∀ i < n, c.getD i 0 ≤ hi) :
    ∃ v, py_splev x t c k ext = .ok v ∧ lo ≤ v ∧ v ≤ hi := by
  have hlen := hk.len; have henough := hk.enough
  obtain ⟨l, e, l1, l2, l3, l4, l5, l6⟩ := span_spec hk x
  have ho : ¬ (x < t.getD k 0 ∨ x > t.getD n 0) := by rintro (h | h) <;> [exact absurd h (not_lt.mpr h1); exact absurd h (not_lt.mpr h2)]
  refine ⟨∑ i ∈ Finset.range n, c.getD i 0 * bpiece (knots t) (l - 1) k i x, ?_, ?_⟩
  · simp only [py_splev, Nat.add_sub_cancel, idx_ok (0 : K) (show k < t.length by omega), show t.length - (k + 1) = n by omega,
      idx_ok (0 : K) (show n < t.length by omega), Py.ok_bind, ho, false_and, if_false, e]
    exact splev_core hk hc x l1 l2 l3
  · have hnn := bpiece_nonneg (knots t) l3 (x := x) (by rw [knots_lt (by omega)]; exact l4 h1)
      (by rw [show l - 1 + 1 = l by omega, knots_lt (by omega)]; exact l5 h2) k
    have hsum : ∑ i ∈ Finset.range n, bpiece (knots t) (l - 1) k i x = 1 := by
      have := sum_support (knots t) (fun _ => (1 : K)) l1 l2 x
      simp only [one_mul] at this
      rw [← this, bpiece_sum (knots t) l3 x k (by omega)]
    constructor
    · calc lo = ∑ i ∈ Finset.range n, lo * bpiece (knots t) (l - 1) k i x := by rw [← Finset.mul_sum, hsum, mul_one]
        _ ≤ _ := Finset.sum_le_sum fun i hi => mul_le_mul_of_nonneg_right (hlo i (Finset.mem_range.mp hi)) (hnn i)
    · calc _ ≤ ∑ i ∈ Finset.range n, hi * bpiece (knots t) (l - 1) k i x :=
            Finset.sum_le_sum fun i hi => mul_le_mul_of_nonneg_right (hhi i (Finset.mem_range.mp hi)) (hnn i)
        _ = hi := by rw [← Finset.mul_sum, hsum, mul_one]

/-- C30: constants are reproduced for every `x`, extrapolation (`ext = 0`) included. -/
theorem C30_splev_constant {t c : List K} {k n : ℕ} (hk : Knots t k n) (hc : n ≤ c.length) (a x : K) (hca : ∀ i < n, c.getD i 0 = a) :
    py_splev x t c k 0 = .ok a := by
  have hlen := hk.len; have henough := hk.enough
  obtain ⟨l, e, l1, l2, l3, -⟩ := span_spec hk x
  simp only [py_splev, Nat.add_sub_cancel, idx_ok (0 : K) (show k < t.length by omega), show t.length - (k + 1) = n by omega,
    idx_ok (0 : K) (show n < t.length by omega), Py.ok_bind, OfNat.zero_ne_ofNat, zero_ne_one, and_false, if_false, ne_eq,
    not_true_eq_false, false_and, e]
  rw [splev_core hk hc x l1 l2 l3]
  congr 1
  have hsum : ∑ i ∈ Finset.range n, bpiece (knots t) (l - 1) k i x = 1 := by
    have := sum_support (knots t) (fun _ => (1 : K)) l1 l2 x
    simp only [one_mul] at this
    rw [← this, bpiece_sum (knots t) l3 x k (by omega)]
  rw [Finset.sum_congr rfl fun i hi => by rw [hca i (Finset.mem_range.mp hi)], ← Finset.mul_sum, hsum, mul_one]

/-- C30: outside the domain `ext = 1` gives 0, `ext = 2` raises `ValueError`, `ext = 3` gives the value at the nearer end. -/
theorem C30_splev_ext {t c : List K} {k n : ℕ} (hk : Knots t k n) {x : K} (ho : x < t.getD k 0 ∨ t.getD n 0 < x) :
    py_splev x t c k 1 = .ok 0 ∧ py_splev x t c k 2 = .error .valueError ∧
    py_splev x t c k 3 = py_splev (if x < t.getD k 0 then t.getD k 0 else t.getD n 0) t c k 3 := by
  have hlen := hk.len; have henough := hk.enough
  have hkn : t.getD k 0 ≤ t.getD n 0 := by
    rw [← knots_lt (show k < t.length by omega), ← knots_lt (show n < t.length by omega)]; exact hk.mono (by omega)
  refine ⟨?_, ?_, ?_⟩
  · simp only [py_splev, Nat.add_sub_cancel, idx_ok (0 : K) (show k < t.length by omega), show t.length - (k + 1) = n by omega,
      idx_ok (0 : K) (show n < t.length by omega), Py.ok_bind, gt_iff_lt, ho, true_and, if_true]
  · simp only [py_splev, Nat.add_sub_cancel, idx_ok (0 : K) (show k < t.length by omega), show t.length - (k + 1) = n by omega,
      idx_ok (0 : K) (show n < t.length by omega), Py.ok_bind, gt_iff_lt, ho, true_and, if_true, OfNat.ofNat_ne_one, if_false]
  · have hin : ¬ ((if x < t.getD k 0 then t.getD k 0 else t.getD n 0) < t.getD k 0 ∨
        t.getD n 0 < (if x < t.getD k 0 then t.getD k 0 else t.getD n 0)) := by
      split_ifs <;> rintro (h | h) <;> [exact lt_irrefl _ h; exact absurd h (not_lt.mpr hkn); exact absurd h (not_lt.mpr hkn); exact lt_irrefl _ h]
    simp only [py_splev, Nat.add_sub_cancel, idx_ok (0 : K) (show k < t.length by omega), show t.length - (k + 1) = n by omega,
      idx_ok (0 : K) (show n < t.length by omega), Py.ok_bind, gt_iff_lt, ho, hin, true_and, false_and, if_true, if_false, ne_eq,
      not_true_eq_false, and_false, OfNat.ofNat_ne_one]
    norm_num

/-- the argument `py_bisplev` evaluates at: clamped to the domain -/
def clampTo (t : List K) (k n : ℕ) (x : K) : K := max (t.getD k 0) (min x (t.getD n 0))

theorem init_w_spec {t : List K} {k n : ℕ} (hk : Knots t k n) (h5 : k ≤ 5) (x : K) :
    ∃ l w, init_w t k x = .ok (l - k - 1, w) ∧ k < l ∧ l ≤ n ∧ Span (knots t) (l - 1) 0 ∧ w.length = k + 1 ∧
      (∀ j ≤ k, w.getD j 0 = bpiece (knots t) (l - 1) k (l - 1 - k + j) (clampTo t k n x)) ∧
      t.getD (l - 1) 0 ≤ clampTo t k n x ∧ clampTo t k n x ≤ t.getD l 0 ∧
      (clampTo t k n x < t.getD n 0 → clampTo t k n x < t.getD l 0) := by
  have hlen := hk.len; have henough := hk.enough
  have hkn : t.getD k 0 ≤ t.getD n 0 := by
    rw [← knots_lt (show k < t.length by omega), ← knots_lt (show n < t.length by omega)]; exact hk.mono (by omega)
  have hcl : (if (if x < t.getD k 0 then t.getD k 0 else x) > t.getD n 0 then t.getD n 0 else (if x < t.getD k 0 then t.getD k 0 else x)) =
      clampTo t k n x := by
    unfold clampTo
    by_cases h1 : x < t.getD k 0
    · rw [if_pos h1, if_neg (not_lt.mpr hkn), max_eq_left ((min_le_left _ _).trans h1.le)]
    · rw [if_neg h1]
      by_cases h2 : x > t.getD n 0
      · rw [if_pos h2, min_eq_right h2.le, max_eq_right hkn]
      · rw [if_neg h2, min_eq_left (not_lt.mp h2), max_eq_right (not_lt.mp h1)]
  obtain ⟨l, e, l1, l2, l3, l4, l5, l6⟩ := span_spec hk (clampTo t k n x)
  obtain ⟨h, e2, h1, h2⟩ := fpbspl_spec (x := clampTo t k n x) (h := List.replicate 6 0) l3 l1 (by omega) (by simp; omega)
  simp only [List.length_replicate] at h1
  refine ⟨l, (List.range (k + 1)).map fun j => h.getD j 0, ?_, l1, l2, l3, by simp, ?_, l4 (le_max_left _ _),
    l5 (max_le hkn (min_le_right _ _)), l6⟩
  · simp only [init_w, idx_ok (0 : K) (show k < t.length by omega), show t.length - k - 1 = n by omega,
      idx_ok (0 : K) (show n < t.length by omega), Py.ok_bind, hcl, e, e2]
    rw [mapM_range_ok (k + 1) _ (fun j => h.getD j 0) fun j hj => idx_ok (0 : K) (by omega)]
    rfl
  · intro j hj
    rw [getD_map_range, if_pos (by omega), h2 j hj]

/-- C30: `py_bisplev` is the tensor-product sum `Σ_ij c[i*ny+j] B_i(x) B_j(y)` at the argument clamped to the domain (stated for a clamped
argument short of the right end in either direction), for all degrees up to five. -/
theorem C30_bisplev {tx ty c : List K} {kx ky nx ny : ℕ} (hx : Knots tx kx nx) (hy : Knots ty ky ny) (hkx : kx ≤ 5) (hky : ky ≤ 5)
    (hc : nx * ny ≤ c.length) (x y : K) (hx1 : x < tx.getD nx 0) (hy1 : y < ty.getD ny 0) :
    py_bisplev x y tx ty c kx ky = .ok (∑ i ∈ Finset.range nx, ∑ j ∈ Finset.range ny,
      c.getD (i * ny + j) 0 * bspline (knots tx) kx i (max (tx.getD kx 0) x) * bspline (knots ty) ky j (max (ty.getD ky 0) y)) := by
  have hxl := hx.len; have hxe := hx.enough; have hyl := hy.len; have hye := hy.enough
  obtain ⟨lx, wx, ex, x1, x2, x3, x4, x5, x6, x7, x8⟩ := init_w_spec hx hkx x
  obtain ⟨ly, wy, ey, y1, y2, y3, y4, y5, y6, y7, y8⟩ := init_w_spec hy hky y
  have kn : ∀ {t : List K} {k n : ℕ}, Knots t k n → t.getD k 0 < t.getD n 0 := by
    intro t k n hk
    have := hk.len; have := hk.enough
    have h1 := hk.first
    rw [← knots_lt (show k < t.length by omega), ← knots_lt (show k + 1 < t.length by omega)] at h1
    rw [← knots_lt (show k < t.length by omega), ← knots_lt (show n < t.length by omega)]
    exact h1.trans_le (hk.mono (by omega))
  have cx : clampTo tx kx nx x = max (tx.getD kx 0) x := by unfold clampTo; rw [min_eq_left hx1.le]
  have cy : clampTo ty ky ny y = max (ty.getD ky 0) y := by unfold clampTo; rw [min_eq_left hy1.le]
  rw [cx] at x5 x6 x7 x8
  rw [cy] at y5 y6 y7 y8
  have bx : ∀ i, bpiece (knots tx) (lx - 1) kx i (max (tx.getD kx 0) x) = bspline (knots tx) kx i (max (tx.getD kx 0) x) := fun i =>
    bpiece_eq_bspline _ hx.mono (by rw [knots_lt (by omega)]; exact x6)
      (by rw [show lx - 1 + 1 = lx by omega, knots_lt (by omega)]; exact x8 (max_lt (kn hx) hx1)) _ _
  have by' : ∀ i, bpiece (knots ty) (ly - 1) ky i (max (ty.getD ky 0) y) = bspline (knots ty) ky i (max (ty.getD ky 0) y) := fun i =>
    bpiece_eq_bspline _ hy.mono (by rw [knots_lt (by omega)]; exact y6)
      (by rw [show ly - 1 + 1 = ly by omega, knots_lt (by omega)]; exact y8 (max_lt (kn hy) hy1)) _ _
  simp only [py_bisplev, ex, ey, Py.ok_bind, show ty.length - (ky + 1) = ny by omega]
  set X := max (tx.getD kx 0) x
  set Y := max (ty.getD ky 0) y
  have inner : ∀ i1 ≤ kx, ∀ s : K, (List.range (ky + 1)).foldlM (fun (st : K × K) j1 => do
      let cv ← idx c ((lx - kx - 1) * ny + (ly - ky - 1) + i1 * ny + j1)
      let wi ← idx wx i1
      let wj ← idx wy j1
      let a := cv * wi * wj - st.2
      let tmp := st.1 + a
      return (tmp, (tmp - st.1) - a)) (s, 0) =
      (.ok (s + ∑ j ∈ Finset.range ny, c.getD ((lx - (kx + 1) + i1) * ny + j) 0 * wx.getD i1 0 * bpiece (knots ty) (ly - 1) ky j Y, 0) : Py (K × K)) := by
    intro i1 hi1 s
    have key := sum_support (knots ty) (fun j => c.getD ((lx - (kx + 1) + i1) * ny + j) 0 * wx.getD i1 0) y1 y2 Y
    rw [← key]
    have gen : ∀ m ≤ ky + 1, (List.range m).foldlM (fun (st : K × K) j1 => do
      let cv ← idx c ((lx - kx - 1) * ny + (ly - ky - 1) + i1 * ny + j1)
      let wi ← idx wx i1
      let wj ← idx wy j1
      let a := cv * wi * wj - st.2
      let tmp := st.1 + a
      return (tmp, (tmp - st.1) - a)) (s, 0) =
      (.ok (s + ∑ j ∈ Finset.range m, c.getD ((lx - (kx + 1) + i1) * ny + (ly - (ky + 1) + j)) 0 * wx.getD i1 0 *
        bpiece (knots ty) (ly - 1) ky (ly - 1 - ky + j) Y, 0) : Py (K × K)) := by
      intro m
      induction m with
      | zero => intro _; simp
      | succ m ih =>
        intro hm
        have hidx : (lx - kx - 1) * ny + (ly - ky - 1) + i1 * ny + m = (lx - (kx + 1) + i1) * ny + (ly - (ky + 1) + m) := by
          rw [show lx - kx - 1 = lx - (kx + 1) by omega, show ly - ky - 1 = ly - (ky + 1) by omega]; ring
        have hlt : (lx - (kx + 1) + i1) * ny + (ly - (ky + 1) + m) < c.length := by
          refine lt_of_lt_of_le ?_ hc
          calc _ < (lx - (kx + 1) + i1) * ny + ny := by omega
            _ = (lx - (kx + 1) + i1 + 1) * ny := by ring
            _ ≤ _ := Nat.mul_le_mul_right _ (by omega)
        rw [List.range_succ, List.foldlM_append, ih (by omega)]
        simp only [Py.ok_bind, List.foldlM_cons, List.foldlM_nil, hidx, idx_ok (0 : K) hlt, idx_ok (0 : K) (show i1 < wx.length by omega),
          idx_ok (0 : K) (show m < wy.length by omega), Py.pure_eq, Finset.sum_range_succ, y5 m (by omega)]
        congr 2 <;> ring
    exact gen (ky + 1) le_rfl
  have outer : ∀ m ≤ kx + 1, (List.range m).foldlM (fun st i1 =>
    (List.range (ky + 1)).foldlM (fun (st : K × K) j1 => do
      let cv ← idx c ((lx - kx - 1) * ny + (ly - ky - 1) + i1 * ny + j1)
      let wi ← idx wx i1
      let wj ← idx wy j1
      let a := cv * wi * wj - st.2
      let tmp := st.1 + a
      return (tmp, (tmp - st.1) - a)) st) ((0, 0) : K × K) =
      (.ok (∑ i ∈ Finset.range m, ∑ j ∈ Finset.range ny, c.getD ((lx - (kx + 1) + i) * ny + j) 0 * wx.getD i 0 *
        bpiece (knots ty) (ly - 1) ky j Y, 0) : Py (K × K)) := by
    intro m
    induction m with
    | zero => intro _; simp
    | succ m ih =>
      intro hm
      rw [List.range_succ (n := m), List.foldlM_append, ih (by omega)]
      simp only [Py.ok_bind, List.foldlM_cons, List.foldlM_nil]
      rw [inner m (by omega), Finset.sum_range_succ]
      rfl
  rw [outer (kx + 1) le_rfl, Py.ok_bind]
  simp only [Py.pure_eq]
  congr 1
  have key := sum_support (knots tx) (fun i => ∑ j ∈ Finset.range ny, c.getD (i * ny + j) 0 * bpiece (knots ty) (ly - 1) ky j Y) x1 x2 X
  calc _ = ∑ j ∈ Finset.range (kx + 1), (∑ j_1 ∈ Finset.range ny, c.getD ((lx - (kx + 1) + j) * ny + j_1) 0 *
          bpiece (knots ty) (ly - 1) ky j_1 Y) * bpiece (knots tx) (lx - 1) kx (lx - 1 - kx + j) X := by
        refine Finset.sum_congr rfl fun i hi => ?_
        rw [Finset.sum_mul]
        refine Finset.sum_congr rfl fun j _ => ?_
        rw [x5 i (by have := Finset.mem_range.mp hi; omega)]
        ring
    _ = _ := by
        rw [key]
        refine Finset.sum_congr rfl fun i _ => ?_
        rw [Finset.sum_mul]
        refine Finset.sum_congr rfl fun j _ => ?_
        rw [bx, by']
        ring

example : Knots [(0 : ℚ), 0, 0, 1, 2, 2, 2] 2 4 := by
  refine ⟨rfl, by norm_num, ?_, by decide +kernel, by decide +kernel⟩
  apply monotone_nat_of_le_succ
  intro n
  rcases Nat.lt_or_ge n 6 with h | h
  · interval_cases n <;> decide +kernel
  · rw [knots, knots]
    simp only [List.length_cons, List.length_nil]
    rw [min_eq_right (by omega), min_eq_right (by omega)]

example : py_splev (1/2 : ℚ) [0, 0, 0, 1, 2, 2, 2] [1, 2, 0, 4] 2 0 = .ok (3/2) := by decide +kernel

end Basis
end Verif.Splines
