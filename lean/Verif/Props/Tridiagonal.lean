import Verif.Spec.Tridiagonal
import Verif.Lemmas.LU
import Mathlib.Tactic.Linarith
import Mathlib.Tactic.LinearCombination
import Mathlib.Tactic.FieldSimp

/-!
# C17: tridiagonal storage and the Thomas algorithm

Specification: `Spec.triMatrix N a b c`, the Mathlib matrix with the three diagonals.
-/

namespace Verif
open Verif.Spec Verif.Arrays Finset
open scoped Matrix

section Storage
variable {K : Type _} [Field K]

/-- entry `(i, j)` while `tridiagonals_as_array` is being filled up to row `n` -/
theorem tri_fill (N : ℕ) (hN : 0 < N) (a b c : List K) (n : ℕ) (hn : n ≤ N - 1) :
    let R := (List.range n).foldl (fun arr i0 =>
      let i := i0 + 1
      let arr := mset arr i i (b.getD i 0)
      let arr := mset arr i (i - 1) (a.getD (i - 1) 0)
      mset arr (i - 1) i (c.getD (i - 1) 0)) (mset (List.replicate N (List.replicate N (0 : K))) 0 0 (b.getD 0 0))
    IsMat N N R ∧ ∀ i j, mget R i j = if i ≤ n ∧ j ≤ n then (if i = j then b.getD i 0 else if i = j + 1 then a.getD j 0 else
      if j = i + 1 then c.getD i 0 else 0) else 0 := by
  induction n with
  | zero =>
    have h := isMat_replicate N N (0 : K)
    refine ⟨isMat_mset h _ _ _, fun i j => ?_⟩
    simp only [List.range_zero, List.foldl_nil]
    rw [mget_mset h hN hN, mget_replicate_zero]
    by_cases h : i = 0 ∧ j = 0
    · obtain ⟨rfl, rfl⟩ := h; simp
    · rw [if_neg h, if_neg (by omega)]
  | succ n ih =>
    obtain ⟨h1, h2⟩ := ih (by omega)
    rw [List.range_succ, List.foldl_append]
    simp only [List.foldl_cons, List.foldl_nil]
    simp only at h1 h2
    set R := (List.range n).foldl (fun arr i0 => mset (mset (mset arr (i0 + 1) (i0 + 1) (b.getD (i0 + 1) 0)) (i0 + 1)
      (i0 + 1 - 1) (a.getD (i0 + 1 - 1) 0)) (i0 + 1 - 1) (i0 + 1) (c.getD (i0 + 1 - 1) 0))
      (mset (List.replicate N (List.replicate N (0 : K))) 0 0 (b.getD 0 0)) with hR
    have m1 := isMat_mset h1 (n + 1) (n + 1) (b.getD (n + 1) 0)
    have m2 := isMat_mset m1 (n + 1) (n + 1 - 1) (a.getD (n + 1 - 1) 0)
    refine ⟨isMat_mset m2 _ _ _, fun i j => ?_⟩
    rw [mget_mset m2 (by omega) (by omega), mget_mset m1 (by omega) (by omega), mget_mset h1 (by omega) (by omega), h2]
    simp only [Nat.add_sub_cancel]
    by_cases c1 : i = n ∧ j = n + 1
    · obtain ⟨rfl, rfl⟩ := c1
      rw [if_pos ⟨rfl, rfl⟩, if_pos (show i ≤ i + 1 ∧ i + 1 ≤ i + 1 by omega), if_neg (by omega), if_neg (by omega), if_pos rfl]
    rw [if_neg c1]
    by_cases c2 : i = n + 1 ∧ j = n
    · obtain ⟨rfl, rfl⟩ := c2; simp
    rw [if_neg c2]
    by_cases c3 : i = n + 1 ∧ j = n + 1
    · obtain ⟨rfl, rfl⟩ := c3; simp
    rw [if_neg c3]
    by_cases c4 : i ≤ n ∧ j ≤ n
    · rw [if_pos c4, if_pos (show i ≤ n + 1 ∧ j ≤ n + 1 by omega)]
    · rw [if_neg c4]
      split_ifs <;> first | rfl | omega

theorem tri_get (N : ℕ) (hN : 0 < N) (a b c : List K) (hb : b.length = N) :
    IsMat N N (tridiagonals_as_array a b c) ∧ ∀ i < N, ∀ j < N, mget (tridiagonals_as_array a b c) i j =
      if i = j then b.getD i 0 else if i = j + 1 then a.getD j 0 else if j = i + 1 then c.getD i 0 else 0 := by
  obtain ⟨h1, h2⟩ := tri_fill N hN a b c (N - 1) le_rfl
  have e : tridiagonals_as_array a b c = _ := rfl
  simp only [tridiagonals_as_array, hb]
  refine ⟨h1, fun i hi j hj => ?_⟩
  rw [h2, if_pos (by omega)]

/-- C17: `tridiagonals_as_array(a, b, c)` is the tridiagonal matrix with these diagonals, at every size. -/
theorem C17_as_array (N : ℕ) (hN : 0 < N) (a b c : List K) (hb : b.length = N) :
    IsMat N N (tridiagonals_as_array a b c) ∧ toMatrix N N (tridiagonals_as_array a b c) = triMatrix N a b c := by
  obtain ⟨h1, h2⟩ := tri_get N hN a b c hb
  refine ⟨h1, ?_⟩
  ext i j
  exact h2 i i.2 j j.2

/-- C17: extracting the diagonals of the array built from three diagonals gives them back. -/
theorem C17_roundtrip_diagonals (N : ℕ) (hN : 0 < N) (a b c : List K) (ha : a.length = N - 1) (hb : b.length = N)
    (hc : c.length = N - 1) : array_as_tridiagonals (tridiagonals_as_array a b c) = (a, b, c) := by
  obtain ⟨h1, h2⟩ := tri_get N hN a b c hb
  have hr : ((tridiagonals_as_array a b c).getD 0 []).length = N := Arrays.IsMat.row_length h1 hN
  simp only [array_as_tridiagonals, hr]
  refine Prod.ext ?_ (Prod.ext ?_ ?_)
  · apply List.ext_getElem
    · simp [ha]
    · intro i i1 i2
      simp only [List.length_map, List.length_range] at i1
      simp only [List.getElem_map, List.getElem_range]
      rw [h2 _ (by omega) _ (by omega), if_neg (by omega), if_pos rfl, List.getD_eq_getElem _ _ i2]
  · apply List.ext_getElem
    · simp [hb]; omega
    · intro i i1 i2
      rcases i with _ | i
      · simp only [List.getElem_cons_zero]
        rw [h2 0 hN 0 hN, if_pos rfl, List.getD_eq_getElem _ _ i2]
      · have : i + 1 < N := by simpa [hb] using i2
        simp only [List.getElem_cons_succ, List.getElem_map, List.getElem_range]
        rw [h2 _ (by omega) _ (by omega), if_pos rfl, List.getD_eq_getElem _ _ i2]
  · apply List.ext_getElem
    · simp [hc]
    · intro i i1 i2
      simp only [List.length_map, List.length_range] at i1
      simp only [List.getElem_map, List.getElem_range]
      rw [h2 _ (by omega) _ (by omega), if_neg (by omega), if_neg (by omega), if_pos rfl, List.getD_eq_getElem _ _ i2]

/-- C17: rebuilding a tridiagonal matrix from its extracted diagonals gives the matrix back. -/
theorem C17_roundtrip_matrix (N : ℕ) (hN : 0 < N) (A : List (List K)) (hA : IsMat N N A)
    (htri : ∀ i j : Fin N, ((i : ℕ) + 1 < j ∨ (j : ℕ) + 1 < i) → toMatrix N N A i j = 0) :
    tridiagonals_as_array (array_as_tridiagonals A).1 (array_as_tridiagonals A).2.1 (array_as_tridiagonals A).2.2 = A := by
  have hr : (A.getD 0 []).length = N := Arrays.IsMat.row_length hA hN
  have hb : (array_as_tridiagonals A).2.1.length = N := by
    simp only [array_as_tridiagonals, hr, List.length_cons, List.length_map, List.length_range]; omega
  obtain ⟨h1, h2⟩ := tri_get N hN (array_as_tridiagonals A).1 (array_as_tridiagonals A).2.1 (array_as_tridiagonals A).2.2 hb
  refine toMatrix_inj h1 hA ?_
  ext i j
  change mget _ i j = mget A i j
  rw [h2 i i.2 j j.2]
  have hi := i.2; have hj := j.2
  split_ifs with c1 c2 c3
  · rw [← c1]
    simp only [array_as_tridiagonals, hr]
    rcases hi' : (i : ℕ) with _ | k
    · simp
    · rw [List.getD_cons_succ, getD_map_range, if_pos (by omega)]
  · simp only [array_as_tridiagonals, hr]
    rw [getD_map_range, if_pos (by omega), c2]
  · simp only [array_as_tridiagonals, hr]
    rw [getD_map_range, if_pos (by omega), c3]
  · exact (htri i j (by omega)).symm

end Storage

section Thomas
variable {K : Type _} [Field K] [DecidableEq K]

theorem getLastD_eq_getD {α : Type _} (d : α) (l : List α) : l.getLastD d = l.getD (l.length - 1) d := by
  rcases List.eq_nil_or_concat l with rfl | ⟨l, a, rfl⟩
  · rfl
  · simp [List.getD]

theorem triForward_spec {N : ℕ} (a b c d : List K) (hb : b.length = N) (hd : d.length = N) (n : ℕ) (hn : n + 1 ≤ N) :
    (∃ B D, (List.range n).foldlM (triForward a c) (b, d) = .ok (B, D) ∧ B.length = N ∧ D.length = N ∧
      B.getD 0 0 = b.getD 0 0 ∧ D.getD 0 0 = d.getD 0 0 ∧
      (∀ i < n, B.getD i 0 ≠ 0 ∧ B.getD (i + 1) 0 = b.getD (i + 1) 0 - a.getD i 0 / B.getD i 0 * c.getD i 0 ∧
        D.getD (i + 1) 0 = d.getD (i + 1) 0 - a.getD i 0 / B.getD i 0 * D.getD i 0) ∧
      ∀ i, n < i → B.getD i 0 = b.getD i 0 ∧ D.getD i 0 = d.getD i 0) ∨
    (∃ j < n, ∃ B D, (List.range j).foldlM (triForward a c) (b, d) = .ok (B, D) ∧ B.getD j 0 = 0 ∧
      (List.range n).foldlM (triForward a c) (b, d) = .error .zeroDivisionError) := by
  induction n with
  | zero => exact Or.inl ⟨b, d, rfl, hb, hd, rfl, rfl, by simp, fun _ _ => ⟨rfl, rfl⟩⟩
  | succ n ih =>
    rcases ih (by omega) with ⟨B, D, e, l1, l2, z1, z2, h1, h2⟩ | ⟨j, hj, B, D, e, hB, he⟩
    · by_cases hz : B.getD n 0 = 0
      · refine Or.inr ⟨n, by omega, B, D, e, hz, ?_⟩
        rw [List.range_succ, List.foldlM_append, e, Py.ok_bind, List.foldlM_cons]
        simp only [triForward, hz, pdiv_zero, Py.error_bind]
      · refine Or.inl ⟨B.modify (n + 1) (· - a.getD n 0 / B.getD n 0 * c.getD n 0),
          D.modify (n + 1) (· - a.getD n 0 / B.getD n 0 * D.getD n 0), ?_, by simp [l1], by simp [l2], ?_, ?_, ?_, ?_⟩
        · rw [List.range_succ, List.foldlM_append, e, Py.ok_bind, List.foldlM_cons]
          simp only [triForward, pdiv_ok hz, Py.ok_bind, Py.pure_eq, List.foldlM_nil]
        · rw [getD_modify', if_neg (by omega)]; exact z1
        · rw [getD_modify', if_neg (by omega)]; exact z2
        · intro i hi
          rcases Nat.lt_succ_iff_lt_or_eq.mp hi with hi | rfl
          · obtain ⟨p, q, r⟩ := h1 i hi
            simp only [getD_modify']
            rw [if_neg (by omega), if_neg (by omega), if_neg (by omega), if_neg (by omega)]
            exact ⟨p, q, r⟩
          · obtain ⟨q, r⟩ := h2 (i + 1) (by omega)
            simp only [getD_modify']
            rw [if_neg (by omega), if_pos ⟨trivial, by omega⟩, if_pos ⟨trivial, by omega⟩, if_neg (by omega), q, r]
            exact ⟨hz, rfl, rfl⟩
        · intro i hi
          obtain ⟨q, r⟩ := h2 i (by omega)
          simp only [getD_modify']
          rw [if_neg (by omega), if_neg (by omega)]
          exact ⟨q, r⟩
    · refine Or.inr ⟨j, by omega, B, D, e, hB, ?_⟩
      rw [List.range_succ, List.foldlM_append, he, Py.error_bind]

theorem triBack_spec {N : ℕ} (c D B : List K) (n : ℕ) :
    n + 1 ≤ N → ∀ x : List K, x.length = N → (∀ i < n, x.getD i 0 = B.getD i 0) → (∀ i < n, B.getD i 0 ≠ 0) →
      (∀ i, n ≤ i → i + 1 < N → B.getD i 0 * x.getD i 0 + c.getD i 0 * x.getD (i + 1) 0 = D.getD i 0) →
      ∃ r, (List.range n).reverse.foldlM (triBack c D) x = .ok r ∧ r.length = N ∧ r.getD (N - 1) 0 = x.getD (N - 1) 0 ∧
        ∀ i, i + 1 < N → B.getD i 0 * r.getD i 0 + c.getD i 0 * r.getD (i + 1) 0 = D.getD i 0 := by
  induction n with
  | zero => intro _ x hx _ _ h; exact ⟨x, rfl, hx, rfl, fun i hi => h i (by omega) hi⟩
  | succ n ih =>
    intro hn x hx h1 h2 h3
    rw [List.range_succ, List.reverse_append, List.reverse_singleton, List.singleton_append, List.foldlM_cons]
    have hz : x.getD n 0 ≠ 0 := by rw [h1 n (by omega)]; exact h2 n (by omega)
    simp only [triBack, pdiv_ok hz, Py.ok_bind, Py.pure_eq]
    set q := (D.getD n 0 - c.getD n 0 * x.getD (n + 1) 0) / x.getD n 0 with hq
    have hg : ∀ i, (x.set n q).getD i 0 = if i = n then q else x.getD i 0 := fun i => by
      rw [getD_set']
      by_cases e : i = n
      · rw [if_pos ⟨e.symm, by omega⟩, if_pos e]
      · rw [if_neg (by omega), if_neg e]
    obtain ⟨r, r1, r2, r3, r4⟩ := ih (by omega) (x.set n q) (by simp [hx])
      (fun i hi => by rw [hg, if_neg (by omega), h1 i (by omega)]) (fun i hi => h2 i (by omega)) (fun i i1 i2 => by
        by_cases e : i = n
        · subst e
          rw [hg, hg, if_pos rfl, if_neg (by omega), hq, ← h1 i (by omega)]
          field_simp
          ring
        · rw [hg, hg, if_neg e, if_neg (by omega)]; exact h3 i (by omega) i2)
    exact ⟨r, r1, r2, by rw [r3, hg, if_neg (by omega)], r4⟩

/-- the three-term form of one row of the product with a tridiagonal matrix -/
theorem tri_mulVec {N : ℕ} (a b c x : List K) (hc : c.length = N - 1) (i : Fin N) :
    (triMatrix N a b c *ᵥ toVec N x) i =
      (if (i : ℕ) = 0 then 0 else a.getD (i - 1) 0 * x.getD (i - 1) 0) + b.getD i 0 * x.getD i 0 +
        c.getD i 0 * x.getD (i + 1) 0 := by
  have e : ∀ j : Fin N, triMatrix N a b c i j * toVec N x j = (if (i : ℕ) = j + 1 then a.getD j 0 * x.getD j 0 else 0) +
      (if (i : ℕ) = j then b.getD i 0 * x.getD i 0 else 0) + (if (j : ℕ) = i + 1 then c.getD i 0 * x.getD (i + 1) 0 else 0) := by
    intro j
    simp only [triMatrix, toVec]
    by_cases h1 : (i : ℕ) = j
    · rw [if_pos h1, if_neg (by omega), if_pos h1, if_neg (by omega), h1]; ring
    · by_cases h2 : (i : ℕ) = j + 1
      · rw [if_neg h1, if_pos h2, if_pos h2, if_neg h1, if_neg (by omega)]; ring
      · by_cases h3 : (j : ℕ) = i + 1
        · rw [if_neg h1, if_neg h2, if_pos h3, if_neg h2, if_neg h1, if_pos h3, h3]; ring
        · simp [h1, h2, h3]
  simp only [Matrix.mulVec, dotProduct]
  rw [sum_congr rfl fun j _ => e j, sum_add_distrib, sum_add_distrib]
  congr 1
  · congr 1
    · split_ifs with h
      · exact sum_eq_zero fun j _ => by rw [if_neg (by omega)]
      · rw [sum_eq_single (⟨i - 1, by omega⟩ : Fin N)]
        · simp only []
          rw [if_pos (by omega)]
        · intro j _ hj
          rw [if_neg]; intro hh; apply hj; ext; simp only []; omega
        · simp
    · rw [sum_eq_single i]
      · simp
      · intro j _ hj
        rw [if_neg]; intro hh; apply hj; ext; omega
      · simp
  · by_cases h : (i : ℕ) + 1 < N
    · rw [sum_eq_single (⟨i + 1, h⟩ : Fin N)]
      · simp
      · intro j _ hj
        rw [if_neg]; intro hh; apply hj; ext; simp only []; omega
      · simp
    · have : c.getD i 0 = 0 := List.getD_eq_default _ _ (by omega)
      rw [this]
      simp

/-- C17: for every size, `solve_tridiagonal(a, b, c, d)` either returns `x` with `T x = d`, `T` the tridiagonal matrix with
diagonals `a, b, c`, or raises `ZeroDivisionError`. -/
theorem C17_solve (N : ℕ) (hN : 0 < N) (a b c d : List K) (hb : b.length = N) (hc : c.length = N - 1)
    (hd : d.length = N) :
    (∃ x, solve_tridiagonal a b c d = .ok x ∧ x.length = N ∧ triMatrix N a b c *ᵥ toVec N x = toVec N d) ∨
    solve_tridiagonal a b c d = .error .zeroDivisionError := by
  have h0 : ¬ (N = 0 ∨ b.length = 0) := by omega
  simp only [solve_tridiagonal, hd, if_neg h0]
  rcases triForward_spec a b c d hb hd (N - 1) (by omega) with ⟨B, D, e, l1, l2, z1, z2, h1, h2⟩ | ⟨j, hj, B, D, e, hB, he⟩
  · rw [e, Py.ok_bind]
    simp only
    have gl : ∀ l : List K, l.length = N → l.getLastD 0 = l.getD (N - 1) 0 := by
      intro l hl
      rw [← hl, getLastD_eq_getD]
    rw [gl B l1, gl D l2]
    by_cases hz : B.getD (N - 1) 0 = 0
    · right; simp only [hz, pdiv_zero, Py.error_bind]
    · left
      rw [pdiv_ok hz, Py.ok_bind, l1]
      set q := D.getD (N - 1) 0 / B.getD (N - 1) 0 with hq
      have hg : ∀ i, (B.set (N - 1) q).getD i 0 = if i = N - 1 then q else B.getD i 0 := fun i => by
        rw [getD_set']
        by_cases e : i = N - 1
        · rw [if_pos ⟨e.symm, by omega⟩, if_pos e]
        · rw [if_neg (by omega), if_neg e]
      obtain ⟨x, x1, x2, x3, x4⟩ := triBack_spec (N := N) c D B (N - 1) (by omega) (B.set (N - 1) q) (by simp [l1])
        (fun i hi => by rw [hg, if_neg (by omega)]) (fun i hi => (h1 i hi).1) (fun i i1 i2 => by omega)
      refine ⟨x, x1, x2, ?_⟩
      rw [hg, if_pos rfl] at x3
      have xN : x.getD N 0 = 0 := List.getD_eq_default _ _ (by omega)
      have row : ∀ i < N, B.getD i 0 * x.getD i 0 + c.getD i 0 * x.getD (i + 1) 0 = D.getD i 0 := by
        intro i hi
        by_cases hh : i + 1 < N
        · exact x4 i hh
        · obtain rfl : i = N - 1 := by omega
          rw [x3, show N - 1 + 1 = N by omega, xN, hq]
          field_simp; ring
      ext i
      rw [tri_mulVec a b c x hc i]
      simp only [toVec]
      rcases hi : (i : ℕ) with _ | k
      · have := row 0 hN
        rw [z1, z2] at this
        rw [if_pos rfl]; linear_combination this
      · have hk : k + 1 < N := by have := i.2; omega
        obtain ⟨p, q1, q2⟩ := h1 k (by omega)
        have r1 := row k (by omega)
        have r2 := row (k + 1) hk
        rw [if_neg (by omega), Nat.add_sub_cancel]
        rw [q1, q2] at r2
        have : a.getD k 0 = a.getD k 0 / B.getD k 0 * B.getD k 0 := by field_simp
        linear_combination r2 + a.getD k 0 / B.getD k 0 * r1 + x.getD k 0 * this
  · right; rw [he, Py.error_bind]

end Thomas

section Dominant
variable {K : Type _} [Field K] [LinearOrder K] [IsStrictOrderedRing K]

/-- C17: on a strictly (row) diagonally dominant system the solver always succeeds. -/
theorem C17_solve_dominant (N : ℕ) (hN : 0 < N) (a b c d : List K) (hb : b.length = N) (hc : c.length = N - 1)
    (hd : d.length = N)
    (hdom : ∀ i < N, (if i = 0 then 0 else |a.getD (i - 1) 0|) + |c.getD i 0| < |b.getD i 0|) :
    ∃ x, solve_tridiagonal a b c d = .ok x ∧ x.length = N ∧ triMatrix N a b c *ᵥ toVec N x = toVec N d := by
  rcases C17_solve N hN a b c d hb hc hd with h | h
  · exact h
  exfalso
  have h0 : ¬ (N = 0 ∨ b.length = 0) := by omega
  have key : ∀ n ≤ N - 1, ∃ B D, (List.range n).foldlM (triForward a c) (b, d) = .ok (B, D) ∧ B.length = N ∧ D.length = N ∧
      ∀ i ≤ n, |c.getD i 0| < |B.getD i 0| := by
    intro n hn
    rcases triForward_spec a b c d hb hd n (by omega) with ⟨B, D, e, l1, l2, z1, z2, h1, h2⟩ | ⟨j, hj, B, D, e, hB, he⟩
    · refine ⟨B, D, e, l1, l2, fun i => ?_⟩
      induction i with
      | zero => intro _; have := hdom 0 hN; rw [z1]; simpa using this
      | succ i ih =>
        intro hi
        obtain ⟨p, q, -⟩ := h1 i (by omega)
        have ih := ih (by omega)
        have hd' := hdom (i + 1) (by omega)
        rw [if_neg (by omega), Nat.add_sub_cancel] at hd'
        have hp : 0 < |B.getD i 0| := abs_pos.mpr p
        have : |a.getD i 0 / B.getD i 0 * c.getD i 0| ≤ |a.getD i 0| := by
          rw [abs_mul, abs_div, div_mul_eq_mul_div, div_le_iff₀ hp]
          exact mul_le_mul_of_nonneg_left ih.le (abs_nonneg _)
        rw [q]
        have := abs_sub_abs_le_abs_sub (b.getD (i + 1) 0) (a.getD i 0 / B.getD i 0 * c.getD i 0)
        linarith
    · exfalso
      rcases triForward_spec a b c d hb hd j (by omega) with ⟨B', D', e', l1, l2, z1, z2, h1, h2⟩ | ⟨k, hk, B', D', e', hB', he'⟩
      · rw [e'] at e; obtain ⟨rfl, rfl⟩ : B' = B ∧ D' = D := by simpa using e
        have : ∀ i ≤ j, |c.getD i 0| < |B'.getD i 0| := by
          intro i
          induction i with
          | zero => intro _; have := hdom 0 hN; rw [z1]; simpa using this
          | succ i ih =>
            intro hi
            obtain ⟨p, q, -⟩ := h1 i (by omega)
            have ih := ih (by omega)
            have hd' := hdom (i + 1) (by omega)
            rw [if_neg (by omega), Nat.add_sub_cancel] at hd'
            have hp : 0 < |B'.getD i 0| := abs_pos.mpr p
            have : |a.getD i 0 / B'.getD i 0 * c.getD i 0| ≤ |a.getD i 0| := by
              rw [abs_mul, abs_div, div_mul_eq_mul_div, div_le_iff₀ hp]
              exact mul_le_mul_of_nonneg_left ih.le (abs_nonneg _)
            rw [q]
            have := abs_sub_abs_le_abs_sub (b.getD (i + 1) 0) (a.getD i 0 / B'.getD i 0 * c.getD i 0)
            linarith
        have := this j le_rfl
        rw [hB, abs_zero] at this
        exact absurd this (not_lt.mpr (abs_nonneg _))
      · rw [he'] at e; simp at e
  obtain ⟨B, D, e, l1, l2, h1⟩ := key (N - 1) le_rfl
  have hlast : B.getLastD 0 = B.getD (N - 1) 0 := by
    rw [← l1, getLastD_eq_getD]
  have hz : B.getD (N - 1) 0 ≠ 0 := fun hh => by
    have := h1 (N - 1) le_rfl; rw [hh, abs_zero] at this; exact absurd this (not_lt.mpr (abs_nonneg _))
  obtain ⟨x, x1, -⟩ := triBack_spec (N := N) c D B (N - 1) (by omega) (B.set (N - 1) (D.getLastD 0 / B.getLastD 0)) (by simp [l1])
    (fun i hi => by rw [getD_set', if_neg (by omega)]) (fun i hi hh => by
      have := h1 i (by omega); rw [hh, abs_zero] at this; exact absurd this (not_lt.mpr (abs_nonneg _)))
    (fun i i1 i2 => by omega)
  simp only [solve_tridiagonal, hd, if_neg h0, e, Py.ok_bind] at h
  rw [pdiv_ok (by rw [hlast]; exact hz), Py.ok_bind, l1, x1] at h
  simp at h

end Dominant

section Examples
example : solve_tridiagonal [3, 1, (3 : ℚ)] [10, 10, 7, 4] [2, 4, 5] [3, 4, 5, 6] =
    .ok [79/531, 803/1062, -532/531, 797/354] := by decide +kernel
example : tridiagonals_as_array [4, 5] [1, 2, 3] [6, (7 : ℚ)] = [[1, 6, 0], [4, 2, 7], [0, 5, 3]] := by decide +kernel
example : array_as_tridiagonals [[1, 6, 0], [4, 2, 7], [0, 5, (3 : ℚ)]] = ([4, 5], [1, 2, 3], [6, 7]) := by decide +kernel
example : solve_tridiagonal [1, 1] [0, 2, 3] [1, 1] [1, 2, (3 : ℚ)] = .error .zeroDivisionError := by decide +kernel
end Examples

end Verif
