import Verif.Py

/-!
# Model of `chebval`, `chebder`, `chebint` (`fluids/numerics/__init__.py`)

Lists are mutated in place by the Python code; the model threads the lists as loop state (`List.set`, `List.modify`).
`l.getD i 0` is used only where the Python index is in range.
-/

namespace Verif.Chebyshev
variable {K : Type _} [Field K] [DecidableEq K]

/-- numerics/__init__.py:1765-1768, the Clenshaw loop; the list argument is `c[-3], c[-4], ..., c[-len(c)]`. -/
def clenshaw (x2 : K) : K → K → List K → K × K
  | c0, c1, [] => (c0, c1)
  | c0, c1, ci :: rest => clenshaw x2 (ci - c1) (c0 + c1 * x2) rest

/-- numerics/__init__.py:1753-1769 `chebval`. Defaults: offset = 0.0, scale = 1.0. `c[-2]` raises `IndexError` on an empty
list. -/
def chebval (x : K) (c : List K) (offset : K := 0) (scale : K := 1) : Py K :=
  let x := offset + scale * x
  match c.reverse with
  | [] => .error .indexError
  | [c0] => .ok c0
  | [c1, c0] => .ok (c0 + c1 * x)
  | c1 :: c0 :: rest =>
    let x2 := 2 * x
    let r := clenshaw x2 c0 c1 rest
    .ok (r.1 + r.2 * x)

/-- numerics/__init__.py:1790-1792: `for j in range(n, 2, -1)`; the first argument is `j - 2`, state `(c, der)`. -/
def chebderLoop : ℕ → List K × List K → List K × List K
  | 0, st => st
  | i + 1, (c, der) =>
    let j := i + 3
    let der := der.set (j - 1) (((j + j : ℕ) : K) * c.getD j 0)
    let c := c.modify (j - 2) (· + ((j : ℕ) : K) * c.getD j 0 / ((j : K) - 2))
    chebderLoop i (c, der)

/-- numerics/__init__.py:1786-1796: one pass of the `for _ in range(m)` loop after `n = n - 1`; returns the swapped pair
`(c, der)`. -/
def chebderPass (scl : K) (n : ℕ) (c der : List K) : List K × List K :=
  let c := if scl ≠ 1 then (List.range (n + 1)).foldl (fun c j => c.modify j (· * scl)) c else c
  let (c, der) := chebderLoop (n - 2) (c, der)
  let der := if n > 1 then der.set 1 (4 * c.getD 2 0) else der
  let der := der.set 0 (c.getD 1 0)
  (der, c)

/-- numerics/__init__.py:1784-1796, `m` passes starting from `n`. -/
def chebderPasses (scl : K) : ℕ → ℕ → List K → List K → List K × List K
  | 0, _, c, der => (c, der)
  | m + 1, n, c, der =>
    let (c, der) := chebderPass scl (n - 1) c der
    chebderPasses scl m (n - 1) c der

/-- numerics/__init__.py:1771-1799 `chebder`. Defaults: m = 1, scl = 1.0. The final `pop` loop removes the last
`len(c) - n` entries. -/
def chebder (c : List K) (m : ℕ := 1) (scl : K := 1) : List K :=
  if m = 0 then c
  else
    let n := c.length
    if m ≥ n then []
    else
      let r := (chebderPasses scl m n c (List.replicate (n - 1) 0)).1
      r.take (n - m)

/-- numerics/__init__.py:1827-1830: `for j in range(2, n)`; `i` counts iterations done, so `j = i + 2`. -/
def chebintLoop (c0 : List K) (tmp : List K) (j : ℕ) : List K :=
  let cval := c0.getD j 0
  let tmp := tmp.set (j + 1) (cval / (2 * ((j : K) + 1)))
  tmp.modify (j - 1) (· - cval / (2 * ((j : K) - 1)))

/-- numerics/__init__.py:1815-1836: the `cnt` integration passes, state `c0`, `tmp`, `n`. The only index that can be out of
range is `tmp[1]` (for an empty series integrated once). -/
def chebintPasses (lbnd scl : K) : ℕ → List K → List K → ℕ → Py (List K)
  | 0, c0, _, _ => .ok c0
  | cnt + 1, c0, tmp, n => do
    let c0 := if scl ≠ 1 then (List.range n).foldl (fun c j => c.modify j (· * scl)) c0 else c0
    if n = 1 ∧ c0.getD 0 0 = 0 then
      chebintPasses lbnd scl cnt c0 tmp n
    else if tmp.length < 2 then .error .indexError
    else
      let tmp := tmp.set 1 (c0.getD 0 0)
      let tmp := if n > 1 then tmp.set 2 (1 / 4 * c0.getD 1 0) else tmp
      let tmp := ((List.range (n - 2)).map (· + 2)).foldl (chebintLoop c0) tmp
      let val ← chebval lbnd tmp
      let tmp := tmp.modify 0 (· - val)
      chebintPasses lbnd scl cnt tmp c0 (n + 1)

/-- numerics/__init__.py:1801-1837 `chebint`. Defaults: m = 1, lbnd = 0, scl = 1. -/
def chebint (c : List K) (m : ℤ := 1) (lbnd : K := 0) (scl : K := 1) : Py (List K) :=
  if m < 0 then .error .valueError
  else if m = 0 then .ok c
  else if c.length = 1 ∧ c.getD 0 0 = 0 then .ok c
  else
    let cnt := m.toNat
    let nmax := c.length + cnt
    chebintPasses lbnd scl cnt (c ++ List.replicate cnt 0) (List.replicate nmax 0) c.length

end Verif.Chebyshev
