import Verif.Lemmas.Arrays

/-!
# C18: list matrix algebra agrees with linear algebra

Specification: `Spec.IsMat m n A` (rectangular table), `Spec.toMatrix`, `Spec.toVec` and Mathlib's matrix operations.
-/

namespace Verif
open Verif.Spec Verif.Arrays
open scoped Matrix

section
variable {α : Type _} [Inhabited α]

/-- C18: on every nonempty `m × n` matrix `transpose` returns the `n × m` matrix with the entries exchanged, and applying it
again gives the original matrix back. -/
theorem C18_transpose (m n : ℕ) (hm : 0 < m) (hn : 0 < n) (A : List (List α)) (hA : IsMat m n A) :
    ∃ B, transpose A = .ok B ∧ IsMat n m B ∧
      (∀ i < m, ∀ j < n, (B.getD j []).getD i default = (A.getD i []).getD j default) ∧ transpose B = .ok A := by
  obtain ⟨hl, hr⟩ := hA
  have key : ∀ (m n : ℕ), 0 < m → 0 < n → ∀ A : List (List α), IsMat m n A →
      transpose A = .ok ((List.range n).map fun j => A.map fun row => row.getD j default) := by
    intro m n hm hn A hA
    cases A with
    | nil => have := hA.1; simp at this; omega
    | cons r0 A =>
      have h0 : r0.length = n := hA.2 r0 (by simp)
      have h1 : r0 ≠ [] := by rintro rfl; simp at h0; omega
      simp only [transpose, if_neg h1, h0]
      rw [if_neg]
      simpa using hA.2
  set B := (List.range n).map fun j => A.map fun row => row.getD j default with hB
  have hBm : IsMat n m B := by
    constructor
    · simp [hB]
    · intro row h
      simp only [hB, List.mem_map] at h
      obtain ⟨j, -, rfl⟩ := h
      simp [hl]
  refine ⟨B, key m n hm hn A ⟨hl, hr⟩, hBm, ?_, ?_⟩
  · intro i hi j hj
    have : i < A.length := hl ▸ hi
    simp [hB, hj, this]
  · rw [key n m hn hm B hBm]
    congr 1
    refine List.ext_getElem (by simp [hl]) fun i h1 h2 => ?_
    have hrow : A[i].length = n := hr _ (List.getElem_mem h2)
    refine List.ext_getElem (by simp [hB, hrow]) fun j j1 j2 => ?_
    simp [hB, h2, j2]

example : transpose [[1, 2, 3], [4, 5, 6]] = .ok [[1, 4], [2, 5], [3, (6 : ℤ)]] := by decide

/-- C18: `transpose` raises `ValueError` exactly when the first row is nonempty and some row has another length. -/
theorem C18_transpose_error (A : List (List α)) :
    transpose A = .error .valueError ↔ A.getD 0 [] ≠ [] ∧ ∃ row ∈ A, row.length ≠ (A.getD 0 []).length := by
  cases A with
  | nil => simp [transpose]
  | cons r0 A =>
    by_cases h : r0 = []
    · simp [transpose, h]
    · simp only [transpose, if_neg h]
      by_cases h2 : ∀ row ∈ r0 :: A, row.length = r0.length
      · rw [if_neg (by simpa using h2)]
        simp only [List.getD_cons_zero, reduceCtorEq, false_iff, not_and, not_exists]
        intro _ row hrow
        simpa using h2 row hrow
      · rw [if_pos (by simpa using h2)]
        push Not at h2
        simpa [h] using h2

example : transpose [[1, 2], [(3 : ℤ)]] = .error .valueError := by decide
end

variable {K : Type _} [CommRing K]

/-- C18: `matrix_multiply` of an `m × p` and a `p × n` matrix (all sizes positive) is the `m × n` matrix product. -/
theorem C18_matrix_multiply (m p n : ℕ) (hm : 0 < m) (hp : 0 < p) (hn : 0 < n) (A B : List (List K))
    (hA : IsMat m p A) (hB : IsMat p n B) :
    ∃ C, matrix_multiply A B = .ok C ∧ IsMat m n C ∧ toMatrix m n C = toMatrix m p A * toMatrix p n B := by
  have hA0 : (A.getD 0 []).length = p := IsMat.row_length hA hm
  have hB0 : (B.getD 0 []).length = n := IsMat.row_length hB hp
  have e1 : ¬ (A = [] ∨ A.getD 0 [] = [] ∨ B = [] ∨ B.getD 0 [] = []) := by
    rintro (h | h | h | h)
    · have := hA.1; rw [h] at this; simp at this; omega
    · rw [h] at hA0; simp at hA0; omega
    · have := hB.1; rw [h] at this; simp at this; omega
    · rw [h] at hB0; simp at hB0; omega
  refine ⟨A.map fun A_i => (List.range n).map fun j =>
      (List.range p).foldl (fun tot k => tot + A_i.getD k 0 * mget B k j) 0, ?_, ?_, ?_⟩
  · unfold matrix_multiply
    rw [if_neg e1]
    simp only [hA0, hB0]
    rw [if_neg (by simpa using hA.2), if_neg (by simp [hB.1]), if_neg (by simpa using hB.2)]
  · constructor
    · simp [hA.1]
    · intro row h
      simp only [List.mem_map] at h
      obtain ⟨r, -, rfl⟩ := h
      simp
  · ext i j
    have hi : (i : ℕ) < A.length := hA.1 ▸ i.2
    simp only [toMatrix, Matrix.mul_apply]
    rw [getD_map' _ _ _ _ hi, getD_map_range, if_pos j.2, foldl_add_range,
      zero_add, ← Fin.sum_univ_eq_sum_range (fun k => A[(i : ℕ)].getD k 0 * mget B k j)]
    refine Finset.sum_congr rfl fun k _ => ?_
    rw [List.getD_eq_getElem _ _ hi]
    rfl

example : matrix_multiply [[1, 2], [3, 4], [5, 6]] [[1, 0, 2, 1], [3, 1, 0, (-1 : ℤ)]] =
    .ok [[7, 2, 2, -1], [15, 4, 6, -1], [23, 6, 10, -1]] := by decide

/-- C18: `matrix_multiply` raises `ValueError` on everything else: empty, ragged, or mismatched inner sizes. -/
theorem C18_matrix_multiply_error (A B : List (List K))
    (h : ¬ ∃ m p n, 0 < m ∧ 0 < p ∧ 0 < n ∧ IsMat m p A ∧ IsMat p n B) : matrix_multiply A B = .error .valueError := by
  unfold matrix_multiply
  split_ifs with h1
  · rfl
  push Not at h1
  obtain ⟨a1, a2, b1, b2⟩ := h1
  dsimp only
  split_ifs with h2 h3 h4
  all_goals first
  | rfl
  | skip
  · apply h
    refine ⟨A.length, (A.getD 0 []).length, (B.getD 0 []).length, List.length_pos_iff.mpr a1, List.length_pos_iff.mpr a2,
      List.length_pos_iff.mpr b2, ⟨rfl, by simpa using h2⟩, ⟨by simpa using h3, by simpa using h4⟩⟩

example : matrix_multiply [[1, 2], [3, 4]] [[1, (2 : ℤ)]] = .error .valueError := by decide

/-- C18: multiplication is associative (as a program: both orders of evaluation return the same list of rows). -/
theorem C18_matrix_multiply_assoc (m p q n : ℕ) (hm : 0 < m) (hp : 0 < p) (hq : 0 < q) (hn : 0 < n)
    (A B C : List (List K)) (hA : IsMat m p A) (hB : IsMat p q B) (hC : IsMat q n C) :
    ∃ R, (do let AB ← matrix_multiply A B; matrix_multiply AB C) = .ok R ∧
      (do let BC ← matrix_multiply B C; matrix_multiply A BC) = .ok R := by
  obtain ⟨AB, e1, i1, t1⟩ := C18_matrix_multiply m p q hm hp hq A B hA hB
  obtain ⟨BC, e2, i2, t2⟩ := C18_matrix_multiply p q n hp hq hn B C hB hC
  obtain ⟨R1, e3, i3, t3⟩ := C18_matrix_multiply m q n hm hq hn AB C i1 hC
  obtain ⟨R2, e4, i4, t4⟩ := C18_matrix_multiply m p n hm hp hn A BC hA i2
  refine ⟨R1, by rw [e1]; exact e3, ?_⟩
  have : R1 = R2 := toMatrix_inj i3 i4 (by rw [t3, t1, t4, t2, Matrix.mul_assoc])
  rw [e2, this]; exact e4

/-- C18: `eye(N)` is the identity matrix for `N > 0` and raises `ValueError` otherwise. -/
theorem C18_eye (N : ℤ) :
    if 0 < N then ∃ I, eye N = .ok I ∧ IsMat N.toNat N.toNat I ∧ toMatrix N.toNat N.toNat I = (1 : Matrix _ _ K)
    else (eye N : Py (List (List K))) = .error .valueError := by
  split_ifs with h
  · refine ⟨_, by unfold eye; rw [if_neg (by omega)], ?_, ?_⟩
    · constructor
      · simp
      · intro row hr
        simp only [List.mem_map] at hr
        obtain ⟨i, -, rfl⟩ := hr
        simp
    · ext i j
      simp only [toMatrix, Matrix.one_apply]
      have hi : (i : ℕ) < N.toNat := i.2
      rw [getD_map' _ _ _ _ (by simpa using hi), List.getElem_range, getD_set', getD_replicate', List.length_replicate]
      simp only [hi, and_true, Fin.ext_iff]
  · simp [eye, not_lt.mp h]

/-- C18: multiplying by `eye` on either side returns the matrix itself. -/
theorem C18_eye_unit (m n : ℕ) (hm : 0 < m) (hn : 0 < n) (A : List (List K)) (hA : IsMat m n A) :
    (do let I ← eye m; matrix_multiply I A) = .ok A ∧ (do let I ← eye n; matrix_multiply A I) = .ok A := by
  have h1 := C18_eye (K := K) m
  have h2 := C18_eye (K := K) n
  rw [if_pos (by exact_mod_cast hm)] at h1
  rw [if_pos (by exact_mod_cast hn)] at h2
  simp only [Int.toNat_natCast] at h1 h2
  obtain ⟨I, e1, i1, t1⟩ := h1
  obtain ⟨J, e2, i2, t2⟩ := h2
  obtain ⟨R, r1, r2, r3⟩ := C18_matrix_multiply m m n hm hm hn I A i1 hA
  obtain ⟨S, s1, s2, s3⟩ := C18_matrix_multiply m n n hm hn hn A J hA i2
  rw [e1, e2]
  refine ⟨?_, ?_⟩
  · rw [Py.ok_bind, r1, toMatrix_inj r2 hA (by rw [r3, t1, Matrix.one_mul])]
  · rw [Py.ok_bind, s1, toMatrix_inj s2 hA (by rw [s3, t2, Matrix.mul_one])]

example : (do let I ← eye 2; matrix_multiply I [[1, 2], [3, (4 : ℤ)]]) = .ok [[1, 2], [3, 4]] := by decide

/-- C18: `dot_product` is the dot product of vectors of equal length, and raises `ValueError` on unequal lengths. -/
theorem C18_dot_product (a b : List K) :
    dot_product a b = if a.length = b.length then .ok (toVec a.length a ⬝ᵥ toVec a.length b) else .error .valueError := by
  unfold dot_product
  by_cases h : a.length = b.length
  · rw [if_neg (by simpa using h), if_pos h, foldl_add_range, zero_add,
      ← Fin.sum_univ_eq_sum_range (fun i => a.getD i 0 * b.getD i 0)]
    rfl
  · rw [if_pos h, if_neg h]

example : dot_product [1, 2, 3] [4, 5, (6 : ℤ)] = .ok 32 := by decide

/-- C18: `matrix_vector_dot` is the matrix-vector product when every row has the vector's length (also for an empty list of
rows) and raises `ValueError` otherwise. -/
theorem C18_matrix_vector_dot (A : List (List K)) (v : List K) :
    (IsMat A.length v.length A → ∃ r, matrix_vector_dot A v = .ok r ∧ r.length = A.length ∧
      toVec A.length r = toMatrix A.length v.length A *ᵥ toVec v.length v) ∧
    (¬ IsMat A.length v.length A → matrix_vector_dot A v = .error .valueError) := by
  refine ⟨fun h => ⟨_, by unfold matrix_vector_dot; rw [if_neg (by simpa using h.2)], by simp, ?_⟩, fun h => ?_⟩
  · ext i
    simp only [toVec, Matrix.mulVec, dotProduct, toMatrix]
    rw [List.getD_eq_getElem _ _ (by simp), List.getElem_map, sum_map_range,
      ← Fin.sum_univ_eq_sum_range (fun k => A[(i : ℕ)].getD k 0 * v.getD k 0)]
    refine Finset.sum_congr rfl fun k _ => ?_
    rw [List.getD_eq_getElem A _ i.2]
  · unfold matrix_vector_dot
    rw [if_pos]
    have : ¬ ∀ row ∈ A, row.length = v.length := fun h' => h ⟨rfl, h'⟩
    simpa using this

example : matrix_vector_dot [[1, 2], [3, 4], [5, 6]] [1, (-1 : ℤ)] = .ok [-1, -1, -1] := by decide

theorem zipRows_ok (f : K → K → K) (n : ℕ) : ∀ (m : ℕ) (A B : List (List K)), IsMat m n A → IsMat m n B →
    ∃ C, zipRows f A B = .ok C ∧ IsMat m n C ∧ ∀ i < m, ∀ j < n, mget C i j = f (mget A i j) (mget B i j) := by
  intro m
  induction m with
  | zero =>
    intro A B hA hB
    have a := List.length_eq_zero_iff.mp hA.1
    subst a
    exact ⟨[], by simp [zipRows], ⟨rfl, by simp⟩, by simp⟩
  | succ m ih =>
    intro A B hA hB
    cases A with
    | nil => have := hA.1; simp at this
    | cons a A =>
      cases B with
      | nil => have := hB.1; simp at this
      | cons b B =>
        have la : a.length = n := hA.2 a (by simp)
        have lb : b.length = n := hB.2 b (by simp)
        obtain ⟨C, e, i1, i2⟩ := ih A B ⟨by simpa using hA.1, fun r hr => hA.2 r (by simp [hr])⟩
          ⟨by simpa using hB.1, fun r hr => hB.2 r (by simp [hr])⟩
        refine ⟨List.zipWith f a b :: C, by simp [zipRows, la, lb, e], ⟨by simp [i1.1], ?_⟩, ?_⟩
        · intro r hr
          simp only [List.mem_cons] at hr
          rcases hr with rfl | hr
          · simp [la, lb]
          · exact i1.2 r hr
        · intro i hi j hj
          cases i with
          | zero => simp [mget, la, lb, hj]
          | succ i => simpa [mget] using i2 i (by omega) j hj

theorem zipRows_error (f : K → K → K) : ∀ (A B : List (List K)), A.length = B.length →
    (∃ i, ∃ _ : i < A.length, (A.getD i []).length ≠ (B.getD i []).length) → zipRows f A B = .error .valueError := by
  intro A
  induction A with
  | nil => intro B _ ⟨i, h, _⟩; simp at h
  | cons a A ih =>
    intro B hl h
    cases B with
    | nil => simp at hl
    | cons b B =>
      by_cases hab : a.length = b.length
      · obtain ⟨i, hi, hne⟩ := h
        cases i with
        | zero => simp [hab] at hne
        | succ i =>
          have := ih B (by simpa using hl) ⟨i, by simpa using hi, by simpa using hne⟩
          simp [zipRows, hab, this]
      · simp [zipRows, hab]

theorem not_badShapes {m n : ℕ} (hm : 0 < m) (hn : 0 < n) {A B : List (List K)} (hA : IsMat m n A) (hB : IsMat m n B) :
    ¬ badShapes A B := by
  have hA0 : (A.getD 0 []).length = n := IsMat.row_length hA hm
  have hB0 : (B.getD 0 []).length = n := IsMat.row_length hB hm
  unfold badShapes
  rintro (h | h | h | h | h)
  · have := hA.1; rw [h] at this; simp at this; omega
  · have := hB.1; rw [h] at this; simp at this; omega
  · exact h (by rw [hA.1, hB.1])
  · exact h (by rw [hA0, hB0])
  · omega

/-- C18: `scalar_add_matrices` and `scalar_subtract_matrices` are entrywise sum and difference on matrices of the same
nonempty shape. -/
theorem C18_add_subtract [DecidableEq K] (m n : ℕ) (hm : 0 < m) (hn : 0 < n) (A B : List (List K)) (hA : IsMat m n A)
    (hB : IsMat m n B) :
    (∃ C, scalar_add_matrices A B = .ok C ∧ IsMat m n C ∧ toMatrix m n C = toMatrix m n A + toMatrix m n B) ∧
    (∃ C, scalar_subtract_matrices A B = .ok C ∧ IsMat m n C ∧ toMatrix m n C = toMatrix m n A - toMatrix m n B) := by
  have hb := not_badShapes hm hn hA hB
  obtain ⟨C, c1, c2, c3⟩ := zipRows_ok (· + ·) n m A B hA hB
  obtain ⟨D, d1, d2, d3⟩ := zipRows_ok (· - ·) n m A B hA hB
  refine ⟨⟨C, by simp [scalar_add_matrices, hb, c1], c2, ?_⟩, ⟨D, by simp [scalar_subtract_matrices, hb, d1], d2, ?_⟩⟩
  · ext i j; exact c3 i i.2 j j.2
  · ext i j; exact d3 i i.2 j j.2

example : scalar_add_matrices [[1, 2], [3, 4]] [[10, 20], [30, (40 : ℤ)]] = .ok [[11, 22], [33, 44]] ∧
    scalar_subtract_matrices [[1, 2], [3, 4]] [[10, 20], [30, (40 : ℤ)]] = .ok [[-9, -18], [-27, -36]] := by decide

/-- C18: both raise `ValueError` when the number of rows differs, either matrix is empty, or two corresponding rows differ
in length. -/
theorem C18_add_subtract_error [DecidableEq K] (A B : List (List K))
    (h : A = [] ∨ B = [] ∨ A.length ≠ B.length ∨ ∃ i < A.length, (A.getD i []).length ≠ (B.getD i []).length) :
    scalar_add_matrices A B = .error .valueError ∧ scalar_subtract_matrices A B = .error .valueError := by
  unfold scalar_add_matrices scalar_subtract_matrices
  by_cases hb : badShapes A B
  · simp [hb]
  · simp only [if_neg hb]
    unfold badShapes at hb
    push Not at hb
    obtain ⟨h1, h2, h3, h4, h5⟩ := hb
    rcases h with h | h | h | ⟨i, hi, hne⟩
    · exact absurd h h1
    · exact absurd h h2
    · exact absurd h3 h
    · exact ⟨zipRows_error _ A B h3 ⟨i, hi, hne⟩, zipRows_error _ A B h3 ⟨i, hi, hne⟩⟩

example : scalar_add_matrices [[1, 2], [3, 4]] [[10, 20], [(30 : ℤ)]] = .error .valueError := by decide

/-- C18: `scalar_multiply_matrix` multiplies, and `scalar_divide_matrix` divides, every entry; they raise `ValueError` on an
empty matrix and `ZeroDivisionError` for a zero divisor. -/
theorem C18_scalar_multiply_divide {F : Type _} [Field F] [DecidableEq F] (s : F) (m n : ℕ) (hm : 0 < m) (hn : 0 < n)
    (A : List (List F)) (hA : IsMat m n A) :
    (∃ C, scalar_multiply_matrix s A = .ok C ∧ IsMat m n C ∧ toMatrix m n C = s • toMatrix m n A) ∧
    (if s = 0 then scalar_divide_matrix s A = .error .zeroDivisionError
     else ∃ C, scalar_divide_matrix s A = .ok C ∧ IsMat m n C ∧ toMatrix m n C = s⁻¹ • toMatrix m n A) ∧
    scalar_multiply_matrix s ([] : List (List F)) = .error .valueError ∧
    (s ≠ 0 → scalar_divide_matrix s ([] : List (List F)) = .error .valueError) := by
  have hA0 : (A.getD 0 []).length = n := IsMat.row_length hA hm
  have e1 : ¬ (A = [] ∨ A.getD 0 [] = []) := by
    rintro (h | h)
    · have := hA.1; rw [h] at this; simp at this; omega
    · rw [h] at hA0; simp at hA0; omega
  have mp : ∀ f : F → F, IsMat m n (A.map fun row => row.map f) ∧
      ∀ (i : Fin m) (j : Fin n), toMatrix m n (A.map fun row => row.map f) i j = f (toMatrix m n A i j) := by
    intro f
    refine ⟨⟨by simp [hA.1], fun row h => ?_⟩, fun i j => ?_⟩
    · simp only [List.mem_map] at h
      obtain ⟨r, hr, rfl⟩ := h
      simp [hA.2 r hr]
    · have hi : (i : ℕ) < A.length := hA.1 ▸ i.2
      have hj : (j : ℕ) < A[(i : ℕ)].length := by rw [hA.2 _ (List.getElem_mem hi)]; exact j.2
      simp [toMatrix, hi, hj]
  refine ⟨⟨_, by simp only [scalar_multiply_matrix, if_neg e1]; rfl, (mp _).1, ?_⟩, ?_, by simp [scalar_multiply_matrix],
    fun h => by simp [scalar_divide_matrix, h]⟩
  · ext i j; rw [(mp _).2]; rfl
  · split_ifs with h
    · simp [scalar_divide_matrix, h]
    · refine ⟨_, by simp only [scalar_divide_matrix, if_neg h, if_neg e1]; rfl, (mp _).1, ?_⟩
      ext i j; rw [(mp _).2]; simp [div_eq_inv_mul]

example : scalar_multiply_matrix 2 [[1, 2], [3, (4 : ℚ)]] = .ok [[2, 4], [6, 8]] ∧
    scalar_divide_matrix 2 [[1, 2], [3, (4 : ℚ)]] = .ok [[1 / 2, 1], [3 / 2, 2]] := by decide +kernel

theorem foldl_add_self (l : List K) (a : K) : l.foldl (· + ·) a = a + l.sum := by
  induction l generalizing a with
  | nil => simp
  | cons x l ih => simp [ih, add_assoc]

/-- C18: `sum_matrix_rows` returns the row sums and `sum_matrix_cols` the column sums of every nonempty rectangular matrix. -/
theorem C18_row_col_sums (m n : ℕ) (hm : 0 < m) (hn : 0 < n) (A : List (List K)) (hA : IsMat m n A) :
    (∃ r, sum_matrix_rows A = .ok r ∧ r.length = m ∧ ∀ i : Fin m, r.getD i 0 = ∑ j : Fin n, toMatrix m n A i j) ∧
    (∃ c, sum_matrix_cols A = .ok c ∧ c.length = n ∧ ∀ j : Fin n, c.getD j 0 = ∑ i : Fin m, toMatrix m n A i j) := by
  have hA0 : (A.getD 0 []).length = n := IsMat.row_length hA hm
  have e1 : ¬ (A = [] ∨ A.getD 0 [] = []) := by
    rintro (h | h)
    · have := hA.1; rw [h] at this; simp at this; omega
    · rw [h] at hA0; simp at hA0; omega
  have e2 : ¬ ¬ (A.all (fun row => row.length = n)) = true := by simpa using hA.2
  constructor
  · refine ⟨_, by simp only [sum_matrix_rows, if_neg e1, hA0, if_neg e2]; rfl, by simp [hA.1], fun i => ?_⟩
    have hi : (i : ℕ) < A.length := hA.1 ▸ i.2
    have hr : A[(i : ℕ)].length = n := hA.2 _ (List.getElem_mem hi)
    rw [List.getD_eq_getElem _ _ (by simpa using hi), List.getElem_map, foldl_add_self, zero_add]
    simp only [toMatrix, List.getD_eq_getElem A _ hi]
    rw [Fin.sum_univ_eq_sum_range (fun k => A[(i : ℕ)].getD k 0) n, ← sum_map_range, ← hr]
    congr 1
    refine List.ext_getElem (by simp) fun k h1 h2 => ?_
    simp [h1]
  · have loop : ∀ (A : List (List K)) (c : List K), (∀ row ∈ A, row.length = n) → c.length = n →
        (A.foldl (fun result row => (List.range row.length).foldl (fun result j => result.modify j (· + row.getD j 0))
          result) c).length = n ∧
        ∀ j < n, (A.foldl (fun result row => (List.range row.length).foldl (fun result j => result.modify j (· + row.getD j 0))
          result) c).getD j 0 = c.getD j 0 + (A.map fun row => row.getD j 0).sum := by
      intro A
      induction A with
      | nil => intro c _ hc; simp [hc]
      | cons r A ih =>
        intro c hA hc
        have hr : r.length = n := hA r (by simp)
        have hl := length_foldl_modify (List.range r.length) c (fun j => (· + r.getD j 0))
        obtain ⟨i1, i2⟩ := ih _ (fun row h => hA row (by simp [h])) (hl.trans hc)
        refine ⟨i1, fun j hj => ?_⟩
        simp only [List.foldl_cons, List.map_cons, List.sum_cons]
        rw [i2 j hj, getD_foldl_modify_range r.length j c (fun j => (· + r.getD j 0)) 0 (by omega), if_pos (by omega),
          add_assoc]
    obtain ⟨l1, l2⟩ := loop A (List.replicate n 0) hA.2 (by simp)
    refine ⟨_, by simp only [sum_matrix_cols, if_neg e1, hA0, if_neg e2], l1, fun j => ?_⟩
    rw [l2 j j.2, getD_replicate', zero_add]
    simp only [toMatrix]
    rw [Fin.sum_univ_eq_sum_range (fun k => (A.getD k []).getD j 0) m, ← sum_map_range, ← hA.1]
    congr 1
    refine List.ext_getElem (by simp) fun k h1 h2 => ?_
    have : k < A.length := by simpa using h1
    simp [this]

example : sum_matrix_rows [[1, 2, 3], [4, 5, (6 : ℤ)]] = .ok [6, 15] ∧
    sum_matrix_cols [[1, 2, 3], [4, 5, (6 : ℤ)]] = .ok [5, 7, 9] := by decide

end Verif
