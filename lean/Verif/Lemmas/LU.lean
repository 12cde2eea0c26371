import Verif.Lemmas.Arrays
import Mathlib.GroupTheory.Perm.Basic
import Mathlib.Logic.Equiv.Basic
import Mathlib.Algebra.Order.Field.Basic

namespace Verif

theorem foldl_sub_range {M : Type _} [AddCommGroup M] (n : ℕ) (f : ℕ → M) (a : M) :
    (List.range n).foldl (fun s i => s - f i) a = a - ∑ i ∈ Finset.range n, f i := by
  induction n with
  | zero => simp
  | succ n ih => rw [List.range_succ, List.foldl_append, ih, Finset.sum_range_succ]; simp [sub_sub]

/-- Loop rule for `for j in range(n)` with a state-passing, possibly raising, body. -/
theorem foldlM_range_inv {σ : Type _} (f : σ → ℕ → Py σ) (P : ℕ → σ → Prop) (n : ℕ) (s0 : σ) (h0 : P 0 s0)
    (hstep : ∀ j < n, ∀ s, P j s → ∀ s', f s j = .ok s' → P (j + 1) s') :
    (∃ s', (List.range n).foldlM f s0 = .ok s' ∧ P n s') ∨
    (∃ e, (List.range n).foldlM f s0 = .error e ∧ ∃ j < n, ∃ s, P j s ∧ f s j = .error e) := by
  induction n with
  | zero => exact Or.inl ⟨s0, rfl, h0⟩
  | succ n ih =>
    rw [List.range_succ, List.foldlM_append]
    rcases ih (fun j hj => hstep j (by omega)) with ⟨s', e, hp⟩ | ⟨e, he, j, hj, s, hs, hf⟩
    · rw [e]
      simp only [Py.ok_bind, List.foldlM_cons, List.foldlM_nil]
      cases hfs : f s' n with
      | ok s'' => exact Or.inl ⟨s'', rfl, hstep n (by omega) s' hp s'' hfs⟩
      | error e' => exact Or.inr ⟨e', rfl, n, by omega, s', hp, hfs⟩
    · rw [he]
      exact Or.inr ⟨e, rfl, j, by omega, s, hs, hf⟩

end Verif

namespace Verif.Arrays
open Verif.Spec
variable {K : Type _} [Field K] [LinearOrder K] [IsStrictOrderedRing K]

theorem luUpper_spec {N : ℕ} {A : List (List K)} (hA : IsMat N N A) {j : ℕ} (hj : j < N) (n : ℕ) (hn : n ≤ j) :
    let A' := (List.range n).foldl (fun A i =>
      mset A i j ((List.range i).foldl (fun tot k => tot - mget A i k * mget A k j) (mget A i j))) A
    IsMat N N A' ∧ (∀ i k, ¬ (k = j ∧ i < n) → mget A' i k = mget A i k) ∧
      ∀ i < n, mget A' i j = mget A i j - ∑ k ∈ Finset.range i, mget A i k * mget A' k j := by
  induction n with
  | zero => exact ⟨hA, fun _ _ _ => rfl, by simp⟩
  | succ n ih =>
    obtain ⟨h1, h2, h3⟩ := ih (by omega)
    rw [List.range_succ, List.foldl_append]
    set A1 := (List.range n).foldl (fun A i =>
      mset A i j ((List.range i).foldl (fun tot k => tot - mget A i k * mget A k j) (mget A i j))) A
    simp only [List.foldl_cons, List.foldl_nil]
    have hg := mget_mset h1 (i := n) (j := j) (by omega) hj
    refine ⟨isMat_mset h1 _ _ _, fun i k hik => ?_, fun i hi => ?_⟩
    · rw [hg, if_neg (by omega), h2 i k (by omega)]
    · have key : ∀ k < n, ∀ v, mget (mset A1 n j v) k j = mget A1 k j := fun k hk v => by
        rw [hg, if_neg (by omega)]
      rcases Nat.lt_succ_iff_lt_or_eq.mp hi with hi | rfl
      · rw [key i hi, h3 i hi]
        congr 1
        refine Finset.sum_congr rfl fun k hk => ?_
        rw [key k (by simp at hk; omega)]
      · rw [hg, if_pos ⟨rfl, rfl⟩, foldl_sub_range, h2 i j (by omega)]
        congr 1
        refine Finset.sum_congr rfl fun k hk => ?_
        have hk : k < i := by simpa using hk
        rw [key k hk, h2 i k (by omega)]

theorem luLower_spec {N : ℕ} {A : List (List K)} (hA : IsMat N N A) {j : ℕ} (hj : j < N) (n : ℕ) (hn : j + n ≤ N) :
    let r := (List.range' j n).foldl (luLowerStep j) (A, 0, j)
    IsMat N N r.1 ∧ (∀ i k, ¬ (k = j ∧ j ≤ i ∧ i < j + n) → mget r.1 i k = mget A i k) ∧
      (∀ i, j ≤ i → i < j + n → mget r.1 i j = mget A i j - ∑ k ∈ Finset.range j, mget A i k * mget A k j) ∧
      (j ≤ r.2.2 ∧ r.2.2 < N) ∧ 0 ≤ r.2.1 ∧ (∀ i, j ≤ i → i < j + n → |mget r.1 i j| ≤ r.2.1) ∧
      (r.2.1 ≠ 0 → r.2.2 < j + n ∧ |mget r.1 r.2.2 j| = r.2.1) := by
  induction n with
  | zero => exact ⟨hA, fun _ _ _ => rfl, fun i h1 h2 => by omega, ⟨le_rfl, hj⟩, le_rfl, fun i h1 h2 => by omega, by simp⟩
  | succ n ih =>
    obtain ⟨h1, h2, h3, h4, h5, h6, h7⟩ := ih (by omega)
    rw [List.range'_1_concat, List.foldl_append]
    set r := (List.range' j n).foldl (luLowerStep j) (A, 0, j)
    simp only [List.foldl_cons, List.foldl_nil]
    set v := (List.range j).foldl (fun tot k => tot - mget r.1 (j + n) k * mget r.1 k j) (mget r.1 (j + n) j) with hv
    have hg := mget_mset h1 (i := j + n) (j := j) (by omega) hj v
    have hv' : v = mget A (j + n) j - ∑ k ∈ Finset.range j, mget A (j + n) k * mget A k j := by
      rw [hv, foldl_sub_range, h2 _ _ (by omega)]
      congr 1
      refine Finset.sum_congr rfl fun k hk => ?_
      have hk : k < j := by simpa using hk
      rw [h2 _ _ (by omega), h2 _ _ (by omega)]
    have hself : mget (mset r.1 (j + n) j v) (j + n) j = v := by rw [hg, if_pos ⟨rfl, rfl⟩]
    have e : luLowerStep j r (j + n) = if r.2.1 < |v| then (mset r.1 (j + n) j v, |v|, j + n)
        else (mset r.1 (j + n) j v, r.2.1, r.2.2) := by
      simp only [luLowerStep, ← hv, hself]
    have c1 : IsMat N N (mset r.1 (j + n) j v) := isMat_mset h1 _ _ _
    have c2 : ∀ i k, ¬ (k = j ∧ j ≤ i ∧ i < j + (n + 1)) → mget (mset r.1 (j + n) j v) i k = mget A i k := fun i k hik => by
      rw [hg, if_neg (by omega), h2 i k (by omega)]
    have c3 : ∀ i, j ≤ i → i < j + (n + 1) → mget (mset r.1 (j + n) j v) i j =
        mget A i j - ∑ k ∈ Finset.range j, mget A i k * mget A k j := fun i i1 i2 => by
      by_cases hi : i = j + n
      · rw [hi, hself, hv']
      · rw [hg, if_neg (by omega), h3 i i1 (by omega)]
    have c4 : ∀ i, j ≤ i → i < j + n → mget (mset r.1 (j + n) j v) i j = mget r.1 i j := fun i i1 i2 => by
      rw [hg, if_neg (by omega)]
    rw [e]
    split_ifs with hlt
    · refine ⟨c1, c2, c3, ⟨by simp, by simp; omega⟩, abs_nonneg _, fun i i1 i2 => ?_, fun _ => ⟨by simp, by rw [hself]⟩⟩
      by_cases hi : i = j + n
      · rw [hi]; simp only; rw [hself]
      · simp only; rw [c4 i i1 (by omega)]; exact (h6 i i1 (by omega)).trans hlt.le
    · refine ⟨c1, c2, c3, h4, h5, fun i i1 i2 => ?_, fun hne => ?_⟩
      · by_cases hi : i = j + n
        · rw [hi]; simp only; rw [hself]; exact not_lt.mp hlt
        · simp only; rw [c4 i i1 (by omega)]; exact h6 i i1 (by omega)
      · simp only at hne ⊢
        obtain ⟨g1, g2⟩ := h7 hne
        exact ⟨by omega, by rw [c4 _ h4.1 g1]; exact g2⟩

theorem luSwap_spec {N : ℕ} {A : List (List K)} (hA : IsMat N N A) {p j : ℕ} (hp : p < N) (hj : j < N) (hpj : p ≠ j) (n : ℕ)
    (hn : n ≤ N) :
    let A' := (List.range n).foldl (fun A k =>
      let t := mget A p k
      let A := mset A p k (mget A j k)
      mset A j k t) A
    IsMat N N A' ∧ ∀ i k, mget A' i k = if k < n then mget A (Equiv.swap j p i) k else mget A i k := by
  induction n with
  | zero => exact ⟨hA, fun _ _ => by simp⟩
  | succ n ih =>
    obtain ⟨h1, h2⟩ := ih (by omega)
    rw [List.range_succ, List.foldl_append]
    set A1 := (List.range n).foldl (fun A k =>
      let t := mget A p k
      let A := mset A p k (mget A j k)
      mset A j k t) A
    simp only [List.foldl_cons, List.foldl_nil]
    have i1 : IsMat N N (mset A1 p n (mget A1 j n)) := isMat_mset h1 _ _ _
    refine ⟨isMat_mset i1 _ _ _, fun i k => ?_⟩
    rw [mget_mset i1 hj (by omega), mget_mset h1 hp (by omega)]
    by_cases hk : k = n
    · subst hk
      have hk2 : ∀ i, mget A1 i k = mget A i k := fun i => by rw [h2, if_neg (by omega)]
      simp only [hk2]
      rw [if_pos (show k < k + 1 by omega)]
      by_cases hij : i = j
      · subst hij; rw [if_pos (by simp), Equiv.swap_apply_left]
      · rw [if_neg (by tauto)]
        by_cases hip : i = p
        · subst hip; rw [if_pos (by simp), Equiv.swap_apply_right]
        · rw [if_neg (by tauto), Equiv.swap_apply_of_ne_of_ne hij hip]
    · rw [if_neg (by tauto), if_neg (by tauto), h2]
      have : k < n ↔ k < n + 1 := by omega
      simp only [this]

theorem luScale_spec {N : ℕ} {A : List (List K)} (hA : IsMat N N A) {j : ℕ} (hj : j < N) (c : K) (n : ℕ)
    (hn : j + 1 + n ≤ N) :
    let A' := (List.range' (j + 1) n).foldl (fun A i => mset A i j (mget A i j * c)) A
    IsMat N N A' ∧ ∀ i k, mget A' i k = if k = j ∧ j < i ∧ i < j + 1 + n then mget A i k * c else mget A i k := by
  induction n with
  | zero => exact ⟨hA, fun i k => by rw [if_neg (by omega)]; rfl⟩
  | succ n ih =>
    obtain ⟨h1, h2⟩ := ih (by omega)
    rw [List.range'_1_concat, List.foldl_append]
    set A1 := (List.range' (j + 1) n).foldl (fun A i => mset A i j (mget A i j * c)) A
    simp only [List.foldl_cons, List.foldl_nil]
    refine ⟨isMat_mset h1 _ _ _, fun i k => ?_⟩
    rw [mget_mset h1 (by omega) hj]
    by_cases hik : i = j + 1 + n ∧ k = j
    · obtain ⟨rfl, rfl⟩ := hik
      rw [if_pos ⟨rfl, rfl⟩, h2, if_neg (by omega), if_pos (by omega)]
    · rw [if_neg hik, h2]
      have : (k = j ∧ j < i ∧ i < j + 1 + n) ↔ (k = j ∧ j < i ∧ i < j + 1 + (n + 1)) := by omega
      simp only [this]

/-- The state after columns `0 .. j-1`: `A` holds the factors of the row-permuted matrix `M (ρ i) k`. -/
structure LUInv (N j : ℕ) (M : ℕ → ℕ → K) (A : List (List K)) (ρ : Equiv.Perm ℕ) : Prop where
  isMat : IsMat N N A
  perm : ∀ i, i < N ↔ ρ i < N
  done : ∀ k < j, ∀ i < N, M (ρ i) k = ∑ l ∈ Finset.range (min i k), mget A i l * mget A l k +
    (if i ≤ k then mget A i k else mget A i k * mget A k k)
  todo : ∀ k, j ≤ k → k < N → ∀ i < N, mget A i k = M (ρ i) k
  piv : ∀ k < j, mget A k k ≠ 0
  bound : ∀ k < j, ∀ i < N, k < i → |mget A i k| ≤ 1

theorem swap_lt {N j p : ℕ} (hj : j < N) (hp : p < N) (i : ℕ) : Equiv.swap j p i < N ↔ i < N := by
  by_cases h1 : i = j
  · subst h1; rw [Equiv.swap_apply_left]; omega
  · by_cases h2 : i = p
    · subst h2; rw [Equiv.swap_apply_right]; omega
    · rw [Equiv.swap_apply_of_ne_of_ne h1 h2]

theorem swap_ge {c j p : ℕ} (hj : c ≤ j) (hp : c ≤ p) (i : ℕ) : c ≤ Equiv.swap j p i ↔ c ≤ i := by
  by_cases h1 : i = j
  · subst h1; rw [Equiv.swap_apply_left]; omega
  · by_cases h2 : i = p
    · subst h2; rw [Equiv.swap_apply_right]; omega
    · rw [Equiv.swap_apply_of_ne_of_ne h1 h2]

/-- One column: either the pivot search finds only zeros (and `ValueError` is raised), or the invariant moves on. -/
theorem luColumn_spec {N j : ℕ} (hj : j < N) {M : ℕ → ℕ → K} {A : List (List K)} {ρ : Equiv.Perm ℕ} {ipivot : List ℕ}
    (h : LUInv N j M A ρ) :
    (luColumn N (A, ipivot) j = .error .valueError ∧
      ∃ u : ℕ → K, (∀ i < j, M (ρ i) j = ∑ l ∈ Finset.range i, mget A i l * u l + u i) ∧
        ∀ i, j ≤ i → i < N → M (ρ i) j = ∑ l ∈ Finset.range j, mget A i l * u l) ∨
    (∃ A' p, luColumn N (A, ipivot) j = .ok (A', ipivot.set j p) ∧ j ≤ p ∧ p < N ∧
      LUInv N (j + 1) M A' (ρ * Equiv.swap j p)) := by
  obtain ⟨u1, u2, u3⟩ := luUpper_spec h.isMat hj j le_rfl
  have eU : luUpper A j = (List.range j).foldl (fun A i =>
      mset A i j ((List.range i).foldl (fun tot k => tot - mget A i k * mget A k j) (mget A i j))) A := rfl
  rw [← eU] at u1 u2 u3
  set A1 := luUpper A j with hA1
  obtain ⟨l1, l2, l3, l4, l5, l6, l7⟩ := luLower_spec u1 hj (N - j) (by omega)
  set r := (List.range' j (N - j)).foldl (luLowerStep j) (A1, 0, j) with hr
  -- the new column in terms of the original data
  have cU : ∀ i < j, M (ρ i) j = ∑ l ∈ Finset.range i, mget A i l * mget r.1 l j + mget r.1 i j := by
    intro i hi
    rw [← h.todo j le_rfl hj i (by omega)]
    have e1 : ∀ l < j, mget r.1 l j = mget A1 l j := fun l hl => l2 l j (by omega)
    rw [e1 i hi, u3 i hi, Finset.sum_congr rfl (fun l hl => by rw [e1 l (by simp at hl; omega)])]
    ring
  have cL : ∀ i, j ≤ i → i < N → M (ρ i) j = ∑ l ∈ Finset.range j, mget A i l * mget r.1 l j + mget r.1 i j := by
    intro i h1 h2
    rw [l3 i h1 (by omega), u2 i j (by omega), h.todo j le_rfl hj i h2]
    have e1 : ∀ l < j, mget r.1 l j = mget A1 l j := fun l hl => l2 l j (by omega)
    have e2 : ∑ l ∈ Finset.range j, mget A1 i l * mget A1 l j = ∑ l ∈ Finset.range j, mget A i l * mget r.1 l j :=
      Finset.sum_congr rfl (fun l hl => by rw [u2 i l (by simp at hl; omega), ← e1 l (by simpa using hl)])
    rw [e2]
    ring
  have same : ∀ i k, k ≠ j → mget r.1 i k = mget A i k := fun i k hk => by
    rw [l2 i k (by tauto), u2 i k (by tauto)]
  by_cases hz : r.2.1 = 0
  · left
    refine ⟨by simp only [luColumn, ← hA1, ← hr, if_pos hz], fun l => mget r.1 l j, cU, fun i h1 h2 => ?_⟩
    have : mget r.1 i j = 0 := by
      have := l6 i h1 (by omega)
      rw [hz] at this
      exact abs_eq_zero.mp (le_antisymm this (abs_nonneg _))
    rw [cL i h1 h2, this, add_zero]
  · right
    obtain ⟨p1, p2⟩ := l7 hz
    set p := r.2.2 with hp
    obtain ⟨hjp, hpN⟩ := l4
    -- the swapped matrix
    have hsw : ∃ A2, (if p ≠ j then luSwap r.1 N p j else r.1) = A2 ∧ IsMat N N A2 ∧
        ∀ i k, k < N → mget A2 i k = mget r.1 (Equiv.swap j p i) k := by
      by_cases hpj : p = j
      · rw [if_neg (by tauto)]
        refine ⟨_, rfl, l1, fun i k _ => ?_⟩
        rw [hpj]; simp
      · rw [if_pos hpj]
        obtain ⟨s1, s2⟩ := luSwap_spec l1 hpN hj hpj N le_rfl
        exact ⟨_, rfl, s1, fun i k hk => by rw [luSwap, s2, if_pos hk]⟩
    obtain ⟨A2, eA2, m2, g2⟩ := hsw
    have hpiv : mget A2 j j ≠ 0 := by
      rw [g2 j j hj, Equiv.swap_apply_left]
      intro h0
      rw [h0, abs_zero] at p2
      exact hz p2.symm
    obtain ⟨m3, g3⟩ := luScale_spec m2 hj (1 / mget A2 j j) (N - (j + 1)) (by omega)
    set A3 := luScale A2 N j (1 / mget A2 j j) with hA3
    have eA3 : A3 = (List.range' (j + 1) (N - (j + 1))).foldl (fun A i => mset A i j (mget A i j * (1 / mget A2 j j))) A2 := rfl
    rw [← eA3] at m3 g3
    refine ⟨A3, p, ?_, hjp, hpN, ?_⟩
    · simp only [luColumn, ← hA1, ← hr, if_neg hz, ← hp, eA2, pdiv_ok hpiv, Py.ok_bind, Py.pure_eq, ← hA3]
    · -- entries of the new matrix
      have old : ∀ i k, k < N → k ≠ j → mget A3 i k = mget A (Equiv.swap j p i) k := fun i k hk hkj => by
        rw [g3, if_neg (by tauto), g2 i k hk, same _ _ hkj]
      have lo : ∀ i, i < j → Equiv.swap j p i = i := fun i hi => Equiv.swap_apply_of_ne_of_ne (by omega) (by omega)
      have colU : ∀ i, i ≤ j → mget A3 i j = mget r.1 (Equiv.swap j p i) j := fun i hi => by
        rw [g3, if_neg (by omega), g2 i j hj]
      have colL : ∀ i, j < i → i < N → mget A3 i j * mget A3 j j = mget r.1 (Equiv.swap j p i) j := fun i hi hN => by
        rw [colU j le_rfl, ← g2 j j hj, g3, if_pos ⟨rfl, hi, by omega⟩, g2 i j hj]
        field_simp
      refine ⟨m3, fun i => ?_, ?_, ?_, ?_, ?_⟩
      · rw [Equiv.Perm.mul_apply, ← h.perm, swap_lt hj hpN]
      · intro k hk i hi
        rw [Equiv.Perm.mul_apply]
        have hi' : Equiv.swap j p i < N := (swap_lt hj hpN i).mpr hi
        rcases Nat.lt_succ_iff_lt_or_eq.mp hk with hkj | rfl
        · have hd := h.done k hkj _ hi'
          rcases Nat.lt_or_ge i j with hij | hij
          · rw [lo i hij] at hd ⊢
            rw [hd]
            have hks : mget A3 k k = mget A k k := by rw [old k k (by omega) (by omega), lo k hkj]
            rw [old i k (by omega) (by omega), lo i hij, hks]
            congr 1
            refine Finset.sum_congr rfl fun l hl => ?_
            have : l < min i k := by simpa using hl
            rw [old i l (by omega) (by omega), old l k (by omega) (by omega), lo i hij, lo l (by omega)]
          · have hij' : j ≤ Equiv.swap j p i := (swap_ge le_rfl hjp i).mpr hij
            rw [hd, if_neg (by omega), if_neg (by omega), show min (Equiv.swap j p i) k = k by omega, show min i k = k by omega,
              old i k (by omega) (by omega), old k k (by omega) (by omega), lo k hkj]
            congr 1
            refine Finset.sum_congr rfl fun l hl => ?_
            have : l < k := by simpa using hl
            rw [old i l (by omega) (by omega), old l k (by omega) (by omega), lo l (by omega)]
        · rcases Nat.lt_or_ge i k with hij | hij
          · rw [lo i hij, cU i hij, if_pos hij.le, colU i hij.le, lo i hij, show min i k = i by omega]
            congr 1
            refine Finset.sum_congr rfl fun l hl => ?_
            have : l < i := by simpa using hl
            rw [old i l (by omega) (by omega), lo i hij, colU l (by omega), lo l (by omega)]
          · have hij' : k ≤ Equiv.swap k p i := (swap_ge le_rfl hjp i).mpr hij
            rw [cL _ hij' hi', show min i k = k by omega]
            congr 1
            · refine Finset.sum_congr rfl fun l hl => ?_
              have : l < k := by simpa using hl
              rw [old i l (by omega) (by omega), colU l (by omega), lo l (by omega)]
            · split_ifs with hik
              · rw [colU i hik]
              · rw [colL i (by omega) hi]
      · intro k hk1 hk2 i hi
        rw [Equiv.Perm.mul_apply, old i k hk2 (by omega), h.todo k (by omega) hk2 _ ((swap_lt hj hpN i).mpr hi)]
      · intro k hk
        rcases Nat.lt_succ_iff_lt_or_eq.mp hk with hkj | rfl
        · rw [old k k (by omega) (by omega), lo k hkj]; exact h.piv k hkj
        · rw [colU k le_rfl, ← g2 k k hj]; exact hpiv
      · intro k hk i hi hki
        rcases Nat.lt_succ_iff_lt_or_eq.mp hk with hkj | rfl
        · rw [old i k (by omega) (by omega)]
          rcases Nat.lt_or_ge i j with hij | hij
          · rw [lo i hij]; exact h.bound k hkj i hi hki
          · exact h.bound k hkj _ ((swap_lt hj hpN i).mpr hi) (lt_of_lt_of_le hkj ((swap_ge le_rfl hjp i).mpr hij))
        · have e := colL i hki hi
          have hpv : |mget A3 k k| = r.2.1 := by rw [colU k le_rfl, Equiv.swap_apply_left, p2]
          have hb := l6 (Equiv.swap k p i) ((swap_ge le_rfl hjp i).mpr hki.le) (by
            have := (swap_lt hj hpN i).mpr hi; omega)
          rw [← e, abs_mul, hpv] at hb
          have hpos : 0 < r.2.1 := lt_of_le_of_ne l5 (Ne.symm hz)
          exact le_of_mul_le_mul_right (by linarith) hpos

/-- the row permutation recorded by the first `n` pivots -/
def pivPerm (pivots : List ℕ) : ℕ → Equiv.Perm ℕ
  | 0 => 1
  | n + 1 => pivPerm pivots n * Equiv.swap n (pivots.getD n 0)

theorem pivPerm_congr {p q : List ℕ} (n : ℕ) (h : ∀ i < n, p.getD i 0 = q.getD i 0) : pivPerm p n = pivPerm q n := by
  induction n with
  | zero => rfl
  | succ n ih => rw [pivPerm, pivPerm, ih (fun i hi => h i (by omega)), h n (by omega)]

/-- `inplace_LU` on a square matrix: a factorisation, or `ValueError` with a witness of a dependent column. -/
theorem inplace_LU_spec {N : ℕ} {A : List (List K)} (hA : IsMat N N A) {ipivot : List ℕ} (hp : ipivot.length = N) :
    (∃ A' piv, inplace_LU A ipivot = .ok (A', piv) ∧ piv.length = N ∧ (∀ i < N, i ≤ piv.getD i 0 ∧ piv.getD i 0 < N) ∧
      LUInv N N (mget A) A' (pivPerm piv N)) ∨
    (inplace_LU A ipivot = .error .valueError ∧ ∃ j < N, ∃ (ρ : Equiv.Perm ℕ) (B : List (List K)) (u : ℕ → K),
      LUInv N j (mget A) B ρ ∧ (∀ i < j, mget A (ρ i) j = ∑ l ∈ Finset.range i, mget B i l * u l + u i) ∧
        ∀ i, j ≤ i → i < N → mget A (ρ i) j = ∑ l ∈ Finset.range j, mget B i l * u l) := by
  unfold inplace_LU
  rw [hA.1]
  have hstep : ∀ j < N, ∀ s : List (List K) × List ℕ, (s.2.length = N ∧ (∀ i < j, i ≤ s.2.getD i 0 ∧ s.2.getD i 0 < N) ∧
      LUInv N j (mget A) s.1 (pivPerm s.2 j)) → ∀ s', luColumn N s j = .ok s' →
      (s'.2.length = N ∧ (∀ i < j + 1, i ≤ s'.2.getD i 0 ∧ s'.2.getD i 0 < N) ∧
      LUInv N (j + 1) (mget A) s'.1 (pivPerm s'.2 (j + 1))) := by
    intro j hj s ⟨h1, h2, h3⟩ s' hs'
    rcases luColumn_spec (ipivot := s.2) hj h3 with ⟨e1, -⟩ | ⟨A', p, e1, p1, p2, h4⟩
    · rw [show luColumn N s j = luColumn N (s.1, s.2) j from rfl, e1] at hs'
      cases hs'
    · rw [show luColumn N s j = luColumn N (s.1, s.2) j from rfl, e1] at hs'
      injection hs' with hs'
      subst hs'
      have hget : ∀ i, (s.2.set j p).getD i 0 = if i = j then p else s.2.getD i 0 := fun i => by
        rw [getD_set']
        by_cases hij : i = j
        · rw [if_pos ⟨hij.symm, by omega⟩, if_pos hij]
        · rw [if_neg (by omega), if_neg hij]
      refine ⟨by simp [h1], fun i hi => ?_, ?_⟩
      · simp only [hget]
        split_ifs with hij
        · subst hij; exact ⟨p1, p2⟩
        · exact h2 i (by omega)
      · simp only [pivPerm, hget, if_pos]
        rw [pivPerm_congr (p := s.2.set j p) (q := s.2) j (fun i hi => by rw [hget, if_neg (by omega)])]
        exact h4
  rcases foldlM_range_inv (luColumn N) (fun j st => st.2.length = N ∧ (∀ i < j, i ≤ st.2.getD i 0 ∧ st.2.getD i 0 < N) ∧
    LUInv N j (mget A) st.1 (pivPerm st.2 j)) N (A, ipivot) ⟨hp, by simp, ⟨hA, by simp [pivPerm], by simp, by simp [pivPerm],
      by simp, by simp⟩⟩ hstep with ⟨s', e, h1, h2, h3⟩ | ⟨e, he, j, hj, s, ⟨h1, h2, h3⟩, hf⟩
  · exact Or.inl ⟨s'.1, s'.2, e, h1, h2, h3⟩
  · rcases luColumn_spec (ipivot := s.2) hj h3 with ⟨e1, u, c1, c2⟩ | ⟨A', p, e1, -⟩
    · have : e = .valueError := by
        have h' := hf.symm.trans e1
        injection h'
      subst this
      exact Or.inr ⟨he, j, hj, _, _, u, h3, c1, c2⟩
    · rw [show luColumn N s j = luColumn N (s.1, s.2) j from rfl, e1] at hf
      cases hf

end Verif.Arrays
