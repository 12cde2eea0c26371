import Verif.Model.Translate
import Verif.Model.Sequences

/-!
# Model of the B-spline evaluation of `fluids/numerics/__init__.py`

The work arrays `h`, `hh` are lists threaded through the loops. `t[li - j]` may be a negative index, so it goes through `Seq.pyGet`.
-/

namespace Verif.Splines
open Verif.Translate (idx)
open Verif.Seq (pyGet)

variable {K : Type _} [Field K] [LinearOrder K]

/-- numerics/__init__.py:5101-5104: body of the inner loop of `fpbspl` -/
def fpInner (t : List K) (x : K) (l j : ℕ) (hh h : List K) (i : ℕ) : Py (List K) := do
  let a ← pyGet t ((l + i : ℕ) : ℤ)
  let b ← pyGet t ((l + i : ℕ) - (j : ℤ))
  let hi ← idx hh i
  let f ← hi /ₚ (a - b)
  let h := h.set i (h.getD i 0 + f * (a - x))
  return h.set (i + 1) (f * (x - b))

/-- numerics/__init__.py:5098-5104: one pass `j` of `fpbspl` -/
def fpPass (t : List K) (x : K) (l : ℕ) (h : List K) (j : ℕ) : Py (List K) :=
  let hh := h.take j
  (List.range j).foldlM (fpInner t x l j hh) (h.set 0 0)

/-- numerics/__init__.py:5090-5104 `fpbspl`; `for j in range(1, k+1)`. Returns the final `h`. -/
def fpbspl (t : List K) (k : ℕ) (x : K) (l : ℕ) (h : List K) : Py (List K) :=
  (List.range k).foldlM (fun h j => fpPass t x l h (j + 1)) (h.set 0 1)

/-- numerics/__init__.py:4970-4976 `func_40_splev` (and the `while` loop at 5121-5123): from `l` on, the first `l` with `arg < t[l]` or
`l = nk1`. `fuel` bounds the recursion; past the end of `t` Python raises `IndexError`, which happens before the fuel runs out. -/
def findSpan (t : List K) (arg : K) (nk1 : ℕ) : ℕ → ℕ → Py ℕ
  | 0, _ => .error .indexError
  | fuel + 1, l => do
    let a ← idx t l
    if arg < a ∨ l = nk1 then .ok l else findSpan t arg nk1 fuel (l + 1)

/-- numerics/__init__.py:4978-5060 `py_splev(x, (t, c, k), ext)`. `func_35_splev` is called with `l1 == k2`, so it goes straight to
`func_40_splev`. `len(t) - k - 1` is taken in ℕ. -/
def py_splev (x : K) (t c : List K) (k : ℕ) (ext : ℕ) : Py K := do
  let n := t.length
  let k1 := k + 1
  let nk1 := n - k1
  let tb ← idx t (k1 - 1)
  let te ← idx t nk1
  if (x < tb ∨ x > te) ∧ ext = 1 then .ok 0
  else if (x < tb ∨ x > te) ∧ ext = 2 then .error .valueError
  else do
    let arg := if (x < tb ∨ x > te) ∧ ext = 3 then (if x < tb then tb else te) else x
    let l ← (if (x < tb ∨ x > te) ∧ ext ≠ 0 ∧ ext ≠ 3 then .ok k1 else findSpan t arg nk1 (n + 1) k1 : Py ℕ)
    let h ← fpbspl t k arg l (List.replicate (k + 1) 0)
    (List.range k1).foldlM (fun sp j => do
      let cj ← idx c (l - k1 + j)
      let hj ← idx h j
      return sp + cj * hj) 0

/-- numerics/__init__.py:5107-5128 `init_w` (degree at most 5: the work array has six entries) -/
def init_w (t : List K) (k : ℕ) (x : K) : Py (ℕ × List K) := do
  let tb ← idx t k
  let n := t.length
  let te ← idx t (n - k - 1)
  let arg := if x < tb then tb else x
  let arg := if arg > te then te else arg
  let l1 ← findSpan t arg (n - k - 1) (n + 1) (k + 1)
  let h ← fpbspl t k arg l1 (List.replicate 6 0)
  let w ← (List.range (k + 1)).mapM fun j => idx h j
  return (l1 - k - 1, w)

/-- numerics/__init__.py:5130-5145 `bispev_inner` / `py_bisplev` -/
def py_bisplev (x y : K) (tx ty c : List K) (kx ky : ℕ) : Py K := do
  let nky1 := ty.length - (ky + 1)
  let wx ← init_w tx kx x
  let wy ← init_w ty ky y
  let r ← (List.range (kx + 1)).foldlM (fun st i1 =>
    (List.range (ky + 1)).foldlM (fun (st : K × K) j1 => do
      let cv ← idx c (wx.1 * nky1 + wy.1 + i1 * nky1 + j1)
      let wi ← idx wx.2 i1
      let wj ← idx wy.2 j1
      let a := cv * wi * wj - st.2
      let tmp := st.1 + a
      return (tmp, (tmp - st.1) - a)) st) ((0, 0) : K × K)
  return r.1

end Verif.Splines
