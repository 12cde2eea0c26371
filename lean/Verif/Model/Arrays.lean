import Verif.Py

/-!
# Model of `fluids/numerics/arrays.py`

A matrix is a list of rows. In-place assignment `A[i][j] = v` is `mset`, reading `A[i][j]` is `mget`; loops thread the
matrix as state. `mget` returns 0 outside the matrix: this is only reached on ragged or non-square input (where CPython would
raise `IndexError`), and the theorems about the LU routines ask for the square shape.
-/

namespace Verif.Arrays

section CommRing
variable {K : Type _} [CommRing K]

/-- numerics/arrays.py:964: reading `A[i][j]` -/
def mget (A : List (List K)) (i j : ℕ) : K := (A.getD i []).getD j 0
/-- numerics/arrays.py:967: `A[i][j] = v` -/
def mset (A : List (List K)) (i j : ℕ) (v : K) : List (List K) := A.modify i (·.set j v)

/-- arrays.py:75-129 `transpose`; `zip(*matrix)` on rows of equal length. -/
def transpose {α : Type _} [Inhabited α] (matrix : List (List α)) : Py (List (List α)) :=
  match matrix with
  | [] => .ok []
  | row0 :: _ =>
    if row0 = [] then .ok []
    else
      let row_length := row0.length
      if ¬ matrix.all (fun row => row.length = row_length) then .error .valueError
      else .ok ((List.range row_length).map fun j => matrix.map fun row => row.getD j default)

/-- arrays.py:475-525 `eye(N)`; the `isinstance` test is outside the model (`N` is an integer). -/
def eye (N : ℤ) : Py (List (List K)) :=
  if N ≤ 0 then .error .valueError
  else
    let N := N.toNat
    .ok ((List.range N).map fun i => (List.replicate N (0 : K)).set i 1)

/-- arrays.py:528-568 `dot_product`. -/
def dot_product (a b : List K) : Py K :=
  if a.length ≠ b.length then .error .valueError
  else .ok ((List.range a.length).foldl (fun tot i => tot + a.getD i 0 * b.getD i 0) 0)

/-- arrays.py:570-606 `matrix_vector_dot`. -/
def matrix_vector_dot (matrix : List (List K)) (vector : List K) : Py (List K) :=
  let N := vector.length
  if ¬ matrix.all (fun row => row.length = N) then .error .valueError
  else .ok (matrix.map fun row => ((List.range N).map fun i => row.getD i 0 * vector.getD i 0).sum)

/-- arrays.py:608-679 `matrix_multiply`; the result rows, preallocated with zeros and overwritten once, are built
directly. -/
def matrix_multiply (A B : List (List K)) : Py (List (List K)) :=
  if A = [] ∨ A.getD 0 [] = [] ∨ B = [] ∨ B.getD 0 [] = [] then .error .valueError
  else
    let p := (A.getD 0 []).length
    let n := (B.getD 0 []).length
    if ¬ A.all (fun row => row.length = p) then .error .valueError
    else if B.length ≠ p then .error .valueError
    else if ¬ B.all (fun row => row.length = n) then .error .valueError
    else .ok (A.map fun A_i => (List.range n).map fun j =>
      (List.range p).foldl (fun tot k => tot + A_i.getD k 0 * mget B k j) 0)

/-- arrays.py:681-726 `sum_matrix_rows`. -/
def sum_matrix_rows (matrix : List (List K)) : Py (List K) :=
  if matrix = [] ∨ matrix.getD 0 [] = [] then .error .valueError
  else
    let n := (matrix.getD 0 []).length
    if ¬ matrix.all (fun row => row.length = n) then .error .valueError
    else .ok (matrix.map fun row => row.foldl (· + ·) 0)

/-- arrays.py:728-771 `sum_matrix_cols`. -/
def sum_matrix_cols (matrix : List (List K)) : Py (List K) :=
  if matrix = [] ∨ matrix.getD 0 [] = [] then .error .valueError
  else
    let n := (matrix.getD 0 []).length
    if ¬ matrix.all (fun row => row.length = n) then .error .valueError
    else .ok (matrix.foldl (fun result row =>
      (List.range row.length).foldl (fun result j => result.modify j (· + row.getD j 0)) result) (List.replicate n 0))

/-- the row loop of arrays.py:807-812 and 849-854. -/
def zipRows (f : K → K → K) : List (List K) → List (List K) → Py (List (List K))
  | row_A :: A, row_B :: B =>
    if row_A.length ≠ row_B.length then .error .valueError
    else do
      let rest ← zipRows f A B
      return List.zipWith f row_A row_B :: rest
  | _, _ => .ok []

/-- arrays.py:804 (and 846): the shape test. -/
def badShapes (A B : List (List K)) : Prop :=
  A = [] ∨ B = [] ∨ A.length ≠ B.length ∨ (A.getD 0 []).length ≠ (B.getD 0 []).length ∨ (A.getD 0 []).length = 0

instance [DecidableEq K] (A B : List (List K)) : Decidable (badShapes A B) := by unfold badShapes; infer_instance

/-- arrays.py:773-812 `scalar_add_matrices`. -/
def scalar_add_matrices [DecidableEq K] (A B : List (List K)) : Py (List (List K)) :=
  if badShapes A B then .error .valueError else zipRows (· + ·) A B

/-- arrays.py:815-854 `scalar_subtract_matrices`. -/
def scalar_subtract_matrices [DecidableEq K] (A B : List (List K)) : Py (List (List K)) :=
  if badShapes A B then .error .valueError else zipRows (· - ·) A B

/-- arrays.py:857-893 `scalar_multiply_matrix`. -/
def scalar_multiply_matrix (scalar : K) (matrix : List (List K)) : Py (List (List K)) :=
  if matrix = [] ∨ matrix.getD 0 [] = [] then .error .valueError
  else .ok (matrix.map fun row => row.map fun val => scalar * val)

/-- arrays.py:938-958 `stack_vectors`. -/
def stack_vectors (vectors : List (List K)) : List (List K) := vectors

end CommRing

section Field
variable {K : Type _} [Field K] [DecidableEq K]

/-- arrays.py:896-936 `scalar_divide_matrix`. -/
def scalar_divide_matrix (scalar : K) (matrix : List (List K)) : Py (List (List K)) :=
  if scalar = 0 then .error .zeroDivisionError
  else if matrix = [] ∨ matrix.getD 0 [] = [] then .error .valueError
  else .ok (matrix.map fun row => row.map fun val => val / scalar)

/-- arrays.py:1232-1282 `array_as_tridiagonals`; `row_last` at iteration `i` is `arr[i-1]`. The returned lists are built
index by index. -/
def array_as_tridiagonals (arr : List (List K)) : List K × List K × List K :=
  let n := (arr.getD 0 []).length
  ((List.range (n - 1)).map fun i => mget arr (i + 1) i,
   mget arr 0 0 :: (List.range (n - 1)).map fun i => mget arr (i + 1) (i + 1),
   (List.range (n - 1)).map fun i => mget arr i (i + 1))

/-- arrays.py:1285-1338 `tridiagonals_as_array` (`zero = 0.0`). Loop state is the array. -/
def tridiagonals_as_array (a b c : List K) : List (List K) :=
  let N := b.length
  let arr := List.replicate N (List.replicate N (0 : K))
  let arr := mset arr 0 0 (b.getD 0 0)
  (List.range (N - 1)).foldl (fun arr i0 =>
    let i := i0 + 1
    let arr := mset arr i i (b.getD i 0)
    let arr := mset arr i (i - 1) (a.getD (i - 1) 0)
    mset arr (i - 1) i (c.getD (i - 1) 0)) arr

/-- arrays.py:1409-1412, one step of forward elimination; state `(b, d)`. -/
def triForward (a c : List K) (st : List K × List K) (i : ℕ) : Py (List K × List K) := do
  let m ← a.getD i 0 /ₚ st.1.getD i 0
  let b := st.1.modify (i + 1) (· - m * c.getD i 0)
  let d := st.2.modify (i + 1) (· - m * st.2.getD i 0)
  return (b, d)

/-- arrays.py:1416-1417, one step of back substitution; state `b`. -/
def triBack (c d : List K) (b : List K) (i : ℕ) : Py (List K) := do
  let v ← (d.getD i 0 - c.getD i 0 * b.getD (i + 1) 0) /ₚ b.getD i 0
  return b.set i v

/-- arrays.py:1340-1419 `solve_tridiagonal`. An empty system raises `IndexError` at `d[-1]`. -/
def solve_tridiagonal (a b c d : List K) : Py (List K) := do
  let N := d.length
  if N = 0 ∨ b.length = 0 then .error .indexError
  else
    let (b, d) ← (List.range (N - 1)).foldlM (triForward a c) (b, d)
    let last ← d.getLastD 0 /ₚ b.getLastD 0
    let b := b.set (b.length - 1) last
    (List.range (N - 1)).reverse.foldlM (triBack c d) b

end Field

section LU
variable {K : Type _} [Field K] [LinearOrder K]

/-- arrays.py:963-967: column `j` above the diagonal. -/
def luUpper (A : List (List K)) (j : ℕ) : List (List K) :=
  (List.range j).foldl (fun A i =>
    let tot := (List.range i).foldl (fun tot k => tot - mget A i k * mget A k j) (mget A i j)
    mset A i j tot) A

/-- arrays.py:971-979, the loop body on rows `i >= j`; state `(A, apiv, ipiv)`. -/
def luLowerStep (j : ℕ) (st : List (List K) × K × ℕ) (i : ℕ) : List (List K) × K × ℕ :=
  let (A, apiv, ipiv) := st
  let tot := (List.range j).foldl (fun tot k => tot - mget A i k * mget A k j) (mget A i j)
  let A := mset A i j tot
  if apiv < |mget A i j| then (A, |mget A i j|, i) else (A, apiv, ipiv)

/-- arrays.py:986-989: swap rows `ipiv` and `j` entry by entry. -/
def luSwap (A : List (List K)) (N ipiv j : ℕ) : List (List K) :=
  (List.range N).foldl (fun A k =>
    let t := mget A ipiv k
    let A := mset A ipiv k (mget A j k)
    mset A j k t) A

/-- arrays.py:992-993: scale column `j` below the diagonal. -/
def luScale (A : List (List K)) (N j : ℕ) (Ajjinv : K) : List (List K) :=
  (List.range' (j + 1) (N - (j + 1))).foldl (fun A i => mset A i j (mget A i j * Ajjinv)) A

/-- arrays.py:962-993, the body for column `j`; state `(A, ipivot)`. -/
def luColumn (N : ℕ) (st : List (List K) × List ℕ) (j : ℕ) : Py (List (List K) × List ℕ) := do
  let (A, ipivot) := st
  let A := luUpper A j
  let (A, apiv, ipiv) := (List.range' j (N - j)).foldl (luLowerStep j) (A, 0, j)
  if apiv = 0 then .error .valueError
  else
    let ipivot := ipivot.set j ipiv
    let A := if ipiv ≠ j then luSwap A N ipiv j else A
    let Ajjinv ← 1 /ₚ mget A j j
    return (luScale A N j Ajjinv, ipivot)

/-- arrays.py:959-993 `inplace_LU(A, ipivot)`: returns the mutated `A` and `ipivot`. -/
def inplace_LU (A : List (List K)) (ipivot : List ℕ) : Py (List (List K) × List ℕ) :=
  (List.range A.length).foldlM (luColumn A.length) (A, ipivot)

/-- arrays.py:1000-1005, forward substitution with the row interchanges. -/
def luForward (A : List (List K)) (pivots : List ℕ) (b : List K) (i : ℕ) : List K :=
  let tot := b.getD (pivots.getD i 0) 0
  let b := b.set (pivots.getD i 0) (b.getD i 0)
  let tot := (List.range i).foldl (fun tot j => tot - mget A i j * b.getD j 0) tot
  b.set i tot

/-- arrays.py:1007-1011, back substitution. -/
def luBack (A : List (List K)) (N : ℕ) (b : List K) (i : ℕ) : Py (List K) := do
  let tot := (List.range' (i + 1) (N - (i + 1))).foldl (fun tot j => tot - mget A i j * b.getD j 0) (b.getD i 0)
  let q ← tot /ₚ mget A i i
  return b.set i q

/-- arrays.py:996-1012 `solve_from_lu`. -/
def solve_from_lu (A : List (List K)) (pivots : List ℕ) (b : List K) : Py (List K) :=
  let N := b.length
  let b := (List.range N).foldl (luForward A pivots) b
  (List.range N).reverse.foldlM (luBack A N) b

/-- arrays.py:1015-1020 `solve_LU_decomposition`. -/
def solve_LU_decomposition (A : List (List K)) (b : List K) : Py (List K) := do
  let N := b.length
  let (A_copy, pivots) ← inplace_LU A (List.replicate N 0)
  solve_from_lu A_copy pivots b

/-- arrays.py:1023-1038 `inv_lu`: column `j` of the result is the solution for the `j`-th unit vector. The result matrix
`ainv[i][j] = b[i]` is filled column by column. -/
def inv_lu (a : List (List K)) : Py (List (List K)) := do
  let N := a.length
  let (A_copy, pivots) ← inplace_LU a (List.replicate N 0)
  (List.range N).foldlM (fun ainv j => do
    let b := (List.replicate N (0 : K)).set j 1
    let b ← solve_from_lu A_copy pivots b
    return (List.range N).foldl (fun ainv i => mset ainv i j (b.getD i 0)) ainv) (List.replicate N (List.replicate N 0))

/-- arrays.py:1040-1082 `lu`. -/
def lu (A : List (List K)) : Py (List (List K) × List (List K) × List (List K)) := do
  let N := A.length
  let (A_copy, pivots) ← inplace_LU A (List.replicate N 0)
  let L := (List.range N).map fun i => (List.range N).map fun j => if j < i then mget A_copy i j else if i = j then 1 else 0
  let U := (List.range N).map fun i => (List.range N).map fun j => if i ≤ j then mget A_copy i j else 0
  let P := (List.range N).map fun i => (List.range N).map fun j => if j = i then (1 : K) else 0
  let P := (List.range pivots.length).foldl (fun P i =>
    let pivot := pivots.getD i 0
    if pivot ≠ i then
      let t := P.getD pivot []
      let P' := P.set pivot (P.getD i [])
      P'.set i t
    else P) P
  return (P, L, U)

/-- arrays.py:1183-1221 `solve`. Unpacking a row or `b` of the wrong length raises `ValueError`. -/
def solve (matrix : List (List K)) (b : List K) : Py (List K) :=
  match matrix with
  | [r0, r1] =>
    match r0, r1, b with
    | [a_00, a_01], [a_10, a_11], [b_0, b_1] =>
      let det := a_00 * a_11 - a_01 * a_10
      if |det| ≤ 1e-7 then solve_LU_decomposition matrix b
      else do
        let inv_det ← 1 /ₚ det
        let x_0 := (a_11 * b_0 - a_01 * b_1) * inv_det
        let x_1 := (-a_10 * b_0 + a_00 * b_1) * inv_det
        return [x_0, x_1]
    | _, _, _ => .error .valueError
  | [r0, r1, r2] =>
    match r0, r1, r2, b with
    | [a_00, a_01, a_02], [a_10, a_11, a_12], [a_20, a_21, a_22], [b_0, b_1, b_2] =>
      let det := a_00 * a_11 * a_22 - a_00 * a_12 * a_21 - a_01 * a_10 * a_22 + a_01 * a_12 * a_20 + a_02 * a_10 * a_21
        - a_02 * a_11 * a_20
      if |det| ≤ 1e-7 then solve_LU_decomposition matrix b
      else do
        let inv_det ← 1 /ₚ det
        let x_0 := (b_0 * (a_11 * a_22 - a_12 * a_21) + b_1 * (-a_01 * a_22 + a_02 * a_21)
          + b_2 * (a_01 * a_12 - a_02 * a_11)) * inv_det
        let x_1 := (b_0 * (-a_10 * a_22 + a_12 * a_20) + b_1 * (a_00 * a_22 - a_02 * a_20)
          + b_2 * (-a_00 * a_12 + a_02 * a_10)) * inv_det
        let x_2 := (b_0 * (a_10 * a_21 - a_11 * a_20) + b_1 * (-a_00 * a_21 + a_01 * a_20)
          + b_2 * (a_00 * a_11 - a_01 * a_10)) * inv_det
        return [x_0, x_1, x_2]
    | _, _, _, _ => .error .valueError
  | _ => solve_LU_decomposition matrix b

/-- arrays.py:376-420 `inv`. -/
def inv (matrix : List (List K)) : Py (List (List K)) :=
  match matrix with
  | [r0] => do
    match r0 with
    | [] => .error .indexError
    | m :: _ =>
      let v ← 1 /ₚ m
      return [[v]]
  | [r0, r1] =>
    match r0, r1 with
    | [m_00, m_01], [m_10, m_11] =>
      let x0 := m_00 * m_11 - m_01 * m_10
      if |x0| ≤ 1e-7 then inv_lu matrix
      else do
        let x1 ← 1 /ₚ x0
        return [[m_11 * x1, -m_01 * x1], [-m_10 * x1, m_00 * x1]]
    | _, _ => .error .valueError
  | [r0, r1, r2] =>
    match r0, r1, r2 with
    | [m_00, m_01, m_02], [m_10, m_11, m_12], [m_20, m_21, m_22] =>
      let x0 := m_11 * m_22
      let x1 := m_01 * m_12
      let x2 := m_02 * m_21
      let x3 := m_12 * m_21
      let x4 := m_01 * m_22
      let x5 := m_02 * m_11
      let x6 := m_00 * x0 - m_00 * x3 + m_10 * x2 - m_10 * x4 + m_20 * x1 - m_20 * x5
      if |x6| ≤ 1e-7 then inv_lu matrix
      else do
        let x7 ← 1 /ₚ x6
        return [[x7 * (x0 - x3), -x7 * (-x2 + x4), x7 * (x1 - x5)],
          [-x7 * (m_10 * m_22 - m_12 * m_20), x7 * (m_00 * m_22 - m_02 * m_20), -x7 * (m_00 * m_12 - m_02 * m_10)],
          [x7 * (m_10 * m_21 - m_11 * m_20), -x7 * (m_00 * m_21 - m_01 * m_20), x7 * (m_00 * m_11 - m_01 * m_10)]]
    | _, _, _ => .error .valueError
  | _ => inv_lu matrix

end LU

/-- numerics/arrays.py:131: What `det` hands back: a number, or (for a 1x1 matrix) the row list itself. -/
inductive DetResult (K : Type _)
  | number (x : K)
  | row (r : List K)
  deriving DecidableEq

section Det
variable {K : Type _} [CommRing K]

/-- arrays.py:131-273 `det`. For a 1x1 matrix the code returns `matrix[0]`, which is the row, not the number. From size 6 on
(and for the empty matrix) it calls NumPy: that call is the parameter `np_det`. Unpacking rows of the wrong length raises
`ValueError`. -/
def det (np_det : List (List K) → Py K) (matrix : List (List K)) : Py (DetResult K) :=
  match matrix with
  | [r] => .ok (.row r)
  | [r0, r1] =>
    match r0, r1 with
    | [a, b], [c, d] => .ok (.number (a * d - c * b))
    | _, _ => .error .valueError
  | [r0, r1, r2] =>
    match r0, r1, r2 with
    | [a, b, c], [d, e, f], [g, h, i] =>
      .ok (.number (a * (e * i - h * f) - d * (b * i - h * c) + g * (b * f - e * c)))
    | _, _, _ => .error .valueError
  | [r0, r1, r2, r3] =>
    match r0, r1, r2, r3 with
    | [a, b, c, d], [e, f, g, h], [i, j, k, l], [m, n, o, p] =>
      .ok (.number (a * f * k * p - a * f * l * o - a * g * j * p + a * g * l * n + a * h * j * o - a * h * k
        * n - b * e * k * p + b * e * l * o + b * g * i * p - b * g * l * m - b * h * i * o + b * h * k * m +
        c * e * j * p - c * e * l * n - c * f * i * p + c * f * l * m + c * h * i * n - c * h * j * m - d * e
        * j * o + d * e * k * n + d * f * i * o - d * f * k * m - d * g * i * n + d * g * j * m))
    | _, _, _, _ => .error .valueError
  | [r0, r1, r2, r3, r4] =>
    match r0, r1, r2, r3, r4 with
    | [a, b, c, d, e], [f, g, h, i, j], [k, l, m, n, o], [p, q, r, s, t], [u, v, w, x, y] =>
        let x0 := s * y
        let x1 := a * g * m
        let x2 := t * w
        let x3 := a * g * n
        let x4 := r * x
        let x5 := a * g * o
        let x6 := t * x
        let x7 := a * h * l
        let x8 := q * y
        let x9 := a * h * n
        let x10 := s * v
        let x11 := a * h * o
        let x12 := r * y
        let x13 := a * i * l
        let x14 := t * v
        let x15 := a * i * m
        let x16 := q * w
        let x17 := a * i * o
        let x18 := s * w
        let x19 := a * j * l
        let x20 := q * x
        let x21 := a * j * m
        let x22 := r * v
        let x23 := a * j * n
        let x24 := b * f * m
        let x25 := b * f * n
        let x26 := b * f * o
        let x27 := b * h * k
        let x28 := t * u
        let x29 := b * h * n
        let x30 := p * x
        let x31 := b * h * o
        let x32 := b * i * k
        let x33 := p * y
        let x34 := b * i * m
        let x35 := r * u
        let x36 := b * i * o
        let x37 := b * j * k
        let x38 := s * u
        let x39 := b * j * m
        let x40 := p * w
        let x41 := b * j * n
        let x42 := c * f * l
        let x43 := c * f * n
        let x44 := c * f * o
        let x45 := c * g * k
        let x46 := c * g * n
        let x47 := c * g * o
        let x48 := c * i * k
        let x49 := c * i * l
        let x50 := p * v
        let x51 := c * i * o
        let x52 := c * j * k
        let x53 := c * j * l
        let x54 := q * u
        let x55 := c * j * n
        let x56 := d * f * l
        let x57 := d * f * m
        let x58 := d * f * o
        let x59 := d * g * k
        let x60 := d * g * m
        let x61 := d * g * o
        let x62 := d * h * k
        let x63 := d * h * l
        let x64 := d * h * o
        let x65 := d * j * k
        let x66 := d * j * l
        let x67 := d * j * m
        let x68 := e * f * l
        let x69 := e * f * m
        let x70 := e * f * n
        let x71 := e * g * k
        let x72 := e * g * m
        let x73 := e * g * n
        let x74 := e * h * k
        let x75 := e * h * l
        let x76 := e * h * n
        let x77 := e * i * k
        let x78 := e * i * l
        let x79 := e * i * m
        .ok (.number (x0 * x1 - x0 * x24 + x0 * x27 + x0 * x42 - x0 * x45 - x0 * x7 - x1 * x6 + x10 * x11 -
          x10 * x21 - x10 * x44 + x10 * x52 + x10 * x69 - x10 * x74 - x11 * x20 + x12 * x13 + x12 * x25 - x12
          * x3 - x12 * x32 - x12 * x56 + x12 * x59 - x13 * x2 + x14 * x15 + x14 * x43 - x14 * x48 - x14 * x57
          + x14 * x62 - x14 * x9 - x15 * x8 + x16 * x17 - x16 * x23 - x16 * x58 + x16 * x65 + x16 * x70 - x16
          * x77 - x17 * x22 + x18 * x19 + x18 * x26 - x18 * x37 - x18 * x5 - x18 * x68 + x18 * x71 - x19 * x4
          - x2 * x25 + x2 * x3 + x2 * x32 + x2 * x56 - x2 * x59 + x20 * x21 + x20 * x44 - x20 * x52 - x20 *
          x69 + x20 * x74 + x22 * x23 + x22 * x58 - x22 * x65 - x22 * x70 + x22 * x77 + x24 * x6 - x26 * x4 -
          x27 * x6 + x28 * x29 - x28 * x34 - x28 * x46 + x28 * x49 + x28 * x60 - x28 * x63 - x29 * x33 + x30 *
          x31 - x30 * x39 - x30 * x47 + x30 * x53 + x30 * x72 - x30 * x75 - x31 * x38 + x33 * x34 + x33 * x46
          - x33 * x49 - x33 * x60 + x33 * x63 + x35 * x36 - x35 * x41 - x35 * x61 + x35 * x66 + x35 * x73 -
          x35 * x78 - x36 * x40 + x37 * x4 + x38 * x39 + x38 * x47 - x38 * x53 - x38 * x72 + x38 * x75 + x4 *
          x5 + x4 * x68 - x4 * x71 + x40 * x41 + x40 * x61 - x40 * x66 - x40 * x73 + x40 * x78 - x42 * x6 -
          x43 * x8 + x45 * x6 + x48 * x8 + x50 * x51 - x50 * x55 - x50 * x64 + x50 * x67 + x50 * x76 - x50 *
          x79 - x51 * x54 + x54 * x55 + x54 * x64 - x54 * x67 - x54 * x76 + x54 * x79 + x57 * x8 + x6 * x7 -
          x62 * x8 + x8 * x9))
    | _, _, _, _, _ => .error .valueError
  | _ => do
    let v ← np_det matrix
    return .number v

end Det

section Sorting
variable {α : Type _} [LinearOrder α]

/-- arrays.py:1441-1466 `argsort1d`: `sorted` with a key is a stable merge sort of `enumerate(arr)` on the value. -/
def argsort1d (arr : List α) : List ℕ :=
  ((arr.zipIdx.map fun p => (p.2, p.1)).mergeSort (fun x y => decide (x.2 ≤ y.2))).map (·.1)

/-- arrays.py:1468-1519 `sort_paired_lists`. -/
def sort_paired_lists {β : Type _} [Inhabited α] [Inhabited β] (list1 : List α) (list2 : List β) : Py (List α × List β) :=
  if list1.length ≠ list2.length then .error .valueError
  else if list1.length = 0 then .ok ([], [])
  else
    let sorted_indices := argsort1d list1
    .ok (sorted_indices.map fun i => list1.getD i default, sorted_indices.map fun i => list2.getD i default)

/-- arrays.py:1420-1437 `subset_matrix` for an index list. -/
def subset_matrix {K : Type _} [CommRing K] (whole : List (List K)) (subset : List ℕ) : List (List K) :=
  subset.map fun i => subset.map fun j => mget whole i j

end Sorting

noncomputable section
/-- arrays.py:1225-1229 `norm2`. -/
def norm2 (arr : List ℝ) : Py ℝ := psqrt (arr.foldl (fun tot i => tot + i * i) 0)
end

end Verif.Arrays
