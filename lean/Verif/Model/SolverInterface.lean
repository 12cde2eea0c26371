import Verif.Py
import Mathlib.Data.Real.Basic

/-!
# The common interface to solvers, `SolverInterface` of fluids/numerics/__init__.py

A vector is a list of reals with its representation, a Python list or a numpy array. Solvers and difference schemes are not modelled here: any procedure that asks for values of the objective, the jacobian or the
hessian a finite number of times stands for them (`Proc`, `Solver`). The extra arguments `args` are part of the functions.
-/

namespace Verif.SolverInterface

/-- numerics/__init__.py:5925: a Python list or a numpy array, told apart by `type(x) is list` -/
inductive Rep | list | array
  deriving DecidableEq

/-- numerics/__init__.py:5712-5766: what a function returns: a vector or a number -/
inductive Val
  | vec (r : Rep) (l : List ℝ)
  | num (x : ℝ)

/-- numerics/__init__.py:5857-6009: a jacobian, a gradient or a hessian: entries in rows, with the representation -/
structure Mat where
  rep : Rep
  rows : List (List ℝ)

/-- numerics/__init__.py:5712-5766: a point -/
abbrev Vec := Rep × List ℝ
/-- numerics/__init__.py:5768: the argument `objf` -/
abbrev Obj := Vec → Py Val
/-- numerics/__init__.py:5768: the argument `jac` -/
abbrev Jac := Vec → Py Mat

/-- numerics/__init__.py:5646-5681: the names of the methods -/
def scipy_root_options : List String := ["hybr", "lm", "broyden1", "broyden2", "anderson", "linearmixing", "diagbroyden", "excitingmixing", "krylov", "df-sane"]
/-- numerics/__init__.py:5652-5653 `python_solvers` -/
def python_solvers : List String := ["newton_system", "newton_system_line_search", "newton_system_line_search_progress", "newton_minimize",
  "homotopy_solver", "broyden2_python", "fixed_point", "fixed_point_aitken", "fixed_point_gdem", "fixed_point_anderson"]
/-- numerics/__init__.py:5656-5662 `scipy_minimize_options` -/
def scipy_minimize_options : List String := ["Nelder-Mead", "Powell", "CG", "BFGS", "Newton-CG", "L-BFGS-B", "TNC", "COBYLA", "SLSQP", "trust-constr",
  "trust-krylov", "trust-ncg", "dogleg", "trust-exact"]
/-- numerics/__init__.py:5667 `scipy_requires_jacobian_options` -/
def scipy_requires_jacobian_options : List String := ["BFGS", "Newton-CG", "dogleg", "trust-ncg", "trust-krylov"]
/-- numerics/__init__.py:5664 `scipy_requires_hessian_options` -/
def scipy_requires_hessian_options : List String := ["trust-krylov", "trust-ncg", "dogleg", "trust-exact"]

/-- numerics/__init__.py:5712-5766: the wrappers of the objective -/
inductive Wrapper
  | counting | python_return_numpy | numpy_return_python | numpy_minimizing | python_minimizing | python_return_numpy_scalar | numpy_return_python_scalar
  deriving DecidableEq

/-- numerics/__init__.py:5719-5720: `np.array` of a value -/
def toArray : Val → Val
  | .vec _ l => .vec .array l
  | .num x => .num x

/-- numerics/__init__.py:5725: `.tolist()` of a value -/
def toList : Val → Py Val
  | .vec .array l => .ok (.vec .list l)
  | .vec .list _ => .error .attributeError
  | .num _ => .error .attributeError

/-- numerics/__init__.py:5730-5733, 5738-5741: the sum of the squares -/
def sumsq (l : List ℝ) : ℝ := l.foldl (fun tot v => tot + v * v) 0

/-- numerics/__init__.py:5730-5733, 5738-5741: the same of a returned value; a number is not iterable -/
def sumsqVal : Val → Py Val
  | .vec _ l => .ok (.num (sumsq l))
  | .num _ => .error .typeError

/-- numerics/__init__.py:5760-5766: `float` of a value; a vector of one entry, which `float` also takes, is not modelled -/
def toFloat : Val → Py Val
  | .num x => .ok (.num x)
  | .vec _ _ => .error .typeError

/-- numerics/__init__.py:5712-5741, 5760-5766: a call through a wrapper, without the counter -/
def wrapCall (w : Wrapper) (f : Obj) (x : Vec) : Py Val :=
  match w with
  | .counting => f x
  | .python_return_numpy => do
    let v ← f (.list, x.2)
    return toArray v
  | .numpy_return_python => do
    let v ← f (.array, x.2)
    toList v
  | .numpy_minimizing => do
    let v ← f (.array, x.2)
    sumsqVal v
  | .python_minimizing => do
    let v ← f (.list, x.2)
    sumsqVal v
  | .python_return_numpy_scalar => do
    let v ← f (.list, x.2)
    toFloat v
  | .numpy_return_python_scalar => do
    let v ← f (.array, x.2)
    toFloat v

/-- numerics/__init__.py:5768-5786: the arguments of `__init__` read below -/
structure Config where
  method : String
  jacobian_method : String := "python"
  hessian_method : String := "python"
  objf_numpy : Bool := false
  scalar_objective : Bool := false

/-- numerics/__init__.py:5788-5791 -/
def jacobian_numpy (c : Config) : Bool := if c.jacobian_method = "analytical" then c.objf_numpy else ! (c.jacobian_method == "python")

/-- numerics/__init__.py:5792-5795 -/
def hessian_numpy (c : Config) : Bool := if c.hessian_method = "analytical" then c.objf_numpy else ! (c.hessian_method == "python")

/-- numerics/__init__.py:5797 -/
def solver_numpy (c : Config) : Bool := ! python_solvers.contains c.method

/-- numerics/__init__.py:5799, 5819-5820 -/
def minimizing (c : Config) : Bool := ! c.scalar_objective && scipy_minimize_options.contains c.method

/-- numerics/__init__.py:5821-5822: the method of the jacobian after `__init__` -/
def jacobianMethod (c : Config) : String :=
  if minimizing c ∧ c.jacobian_method = "scipy" ∧ scipy_requires_jacobian_options.contains c.method then "python" else c.jacobian_method

/-- numerics/__init__.py:5805-5834: the objective given to the solver -/
def objf (c : Config) : Wrapper :=
  if c.scalar_objective then
    if solver_numpy c then (if ! c.objf_numpy then .python_return_numpy_scalar else .counting)
    else (if c.objf_numpy then .numpy_return_python_scalar else .counting)
  else if minimizing c then (if c.objf_numpy then .numpy_minimizing else .python_minimizing)
  else if solver_numpy c then (if ! c.objf_numpy then .python_return_numpy else .counting)
  else (if c.objf_numpy then .numpy_return_python else .counting)

/-- numerics/__init__.py:5796: the counters `fval_iter`, `jac_iter`, `jac_fval_count`, `hess_iter`, `hess_fval_count` -/
structure Counts where
  fval_iter : ℕ := 0
  jac_iter : ℕ := 0
  jac_fval_count : ℕ := 0
  hess_iter : ℕ := 0
  hess_fval_count : ℕ := 0

/-- numerics/__init__.py:5976-5993: a procedure asking for values of one function: a difference scheme -/
inductive Proc (α : Type) where
  | ret (a : α)
  | fail (e : PyErr)
  | ask (x : Vec) (k : Val → Proc α)

/-- numerics/__init__.py:5976-5993: a procedure with the counter of the calls -/
def Proc.run {α : Type} (o : Vec → Py Val) : Proc α → ℕ → Py (α × ℕ)
  | .ret a, n => .ok (a, n)
  | .fail e, _ => .error e
  | .ask x k, n =>
    match o x with
    | .ok v => (k v).run o (n + 1)
    | .error e => .error e

/-- numerics/__init__.py:5743-5753 `jac_minimizing`: `2 Σⱼ fⱼ Jⱼᵢ`, both indices up to the number of residuals; an index error when a row is shorter -/
def jacMinimizing (f : List ℝ) (J : List (List ℝ)) : Py (List ℝ) :=
  if (List.range f.length).all fun j => decide (f.length ≤ (J.getD j []).length) then
    .ok ((List.range f.length).map fun i => 2 * (List.range f.length).foldl (fun temp j => temp + f.getD j 0 * (J.getD j []).getD i 0) 0)
  else .error .indexError

/-- numerics/__init__.py:5755-5758 `jac_minimizing_numpy`: `2 np.dot(f, J)`; a value error when the numbers of rows differ -/
def jacMinimizingNumpy (f : List ℝ) (J : List (List ℝ)) (cols : ℕ) : Py (List ℝ) :=
  if f.length = J.length then .ok ((List.range cols).map fun i => 2 * (List.range f.length).foldl (fun temp j => temp + f.getD j 0 * (J.getD j []).getD i 0) 0) else .error .valueError

/-- numerics/__init__.py:5743-5758: the entries of a vector of residuals -/
def Val.entries : Val → Py (List ℝ)
  | .vec _ l => .ok l
  | .num _ => .error .typeError

/-- numerics/__init__.py:5836-5841: the analytical jacobian given to the solver -/
def analyticalJac (c : Config) (f : Obj) (J : Jac) (x : Vec) : Py Mat :=
  if minimizing c then do
    let v ← f x
    let m ← J x
    let l ← v.entries
    let g ← if c.objf_numpy then jacMinimizingNumpy l m.rows x.2.length else jacMinimizing l m.rows
    return ⟨if c.objf_numpy then .array else .list, [g]⟩
  else J x

/-- numerics/__init__.py:5953-5969: the representation of a flag -/
def rep (numpy : Bool) : Rep := if numpy then .array else .list

/-- numerics/__init__.py:5929-5933, 5953-5969: the wrapper used inside a jacobian or a hessian whose scheme speaks numpy or not -/
def innerObjf (c : Config) (numpy : Bool) : Wrapper :=
  if c.scalar_objective then (if c.objf_numpy then .counting else if numpy then .python_return_numpy else .counting)
  else if minimizing c then (if c.objf_numpy then .numpy_minimizing else .python_minimizing)
  else if ! numpy then (if c.objf_numpy then .numpy_return_python else .counting)
  else (if c.objf_numpy then .counting else .python_return_numpy)

/-- numerics/__init__.py:5976-5993: the names of the difference schemes -/
def jacobian_schemes : List String := ["python", "numdifftools_forward", "numdifftools_reverse", "numdifftools_central", "jacobi_forward", "jacobi_central", "jacobi_backward"]

/-- numerics/__init__.py:5888-5895 -/
def hessian_schemes : List String := ["python", "numdifftools_forward", "numdifftools_reverse", "numdifftools_central"]

/-- numerics/__init__.py:5987-5993: the `method` argument of the package `jacobi`, and otherwise the name itself -/
def schemeUsed (s : String) : String := if s = "jacobi_backward" then "jacobi_forward" else s

/-- numerics/__init__.py:6006-6009: the value in the representation asked for -/
def inRep (r : Rep) (m : Mat) : Mat := ⟨r, m.rows⟩

/-- numerics/__init__.py:5934-5937, 5976-5993: the difference scheme of a name; with no branch for it the result is unbound -/
def schemeOf (c : Config) (schemes : String → Vec → Proc Mat) (x : Vec) : Py (Proc Mat) :=
  if c.scalar_objective then .ok (schemes "python" (rep (jacobian_numpy c), x.2))
  else if jacobian_schemes.contains (jacobianMethod c) then .ok (schemes (schemeUsed (jacobianMethod c)) (rep (jacobian_numpy c), x.2))
  else .error .unboundLocalError

/-- numerics/__init__.py:5918-6009 `jacobian`. `schemes name x` is the difference scheme of a name started at `x`. -/
def jacobian (c : Config) (f : Obj) (J : Jac) (schemes : String → Vec → Proc Mat) (x : Vec) (n : Counts) : Py (Mat × Counts) :=
  if ! c.scalar_objective && jacobianMethod c == "analytical" then do
    let m ← analyticalJac c f J (rep c.objf_numpy, x.2)
    return (inRep x.1 m, { n with jac_iter := n.jac_iter + 1 })
  else do
    let p ← schemeOf c schemes x
    let r ← p.run (wrapCall (innerObjf c (jacobian_numpy c)) f) n.fval_iter
    return (inRep x.1 r.1, { n with jac_iter := n.jac_iter + 1, jac_fval_count := n.jac_fval_count + (r.2 - n.fval_iter) })

/-- numerics/__init__.py:5857-5866, 5888-5895: the same for the hessian -/
def hessianOf (c : Config) (schemes : String → Vec → Proc Mat) (x : Vec) : Py (Proc Mat) :=
  if c.scalar_objective then .ok (schemes "python" (rep (hessian_numpy c), x.2))
  else if c.hessian_method = "analytical" then .error .notImplementedError
  else if hessian_schemes.contains c.hessian_method then .ok (schemes c.hessian_method (rep (hessian_numpy c), x.2))
  else .error .unboundLocalError

/-- numerics/__init__.py:5843-5916 `hessian` -/
def hessian (c : Config) (f : Obj) (schemes : String → Vec → Proc Mat) (x : Vec) (n : Counts) : Py (Mat × Counts) := do
  let p ← hessianOf c schemes x
  let r ← p.run (wrapCall (innerObjf c (hessian_numpy c)) f) n.fval_iter
  return (inRep x.1 r.1, { n with hess_iter := n.hess_iter + 1, hess_fval_count := n.hess_fval_count + (r.2 - n.fval_iter) })

/-- numerics/__init__.py:6011-6080: a solver: a procedure asking for values, jacobians and hessians -/
inductive Solver where
  | done (x : List ℝ)
  | fail (e : PyErr)
  | objf (x : Vec) (k : Val → Solver)
  | jac (x : Vec) (k : Mat → Solver)
  | hess (x : Vec) (k : Mat → Solver)

/-- numerics/__init__.py:6011-6080: a solver run on the interface -/
def Solver.run (o : Vec → Py Val) (j h : Vec → Counts → Py (Mat × Counts)) : Solver → Counts → Py (List ℝ × Counts)
  | .done x, n => .ok (x, n)
  | .fail e, _ => .error e
  | .objf x k, n =>
    match o x with
    | .ok v => (k v).run o j h { n with fval_iter := n.fval_iter + 1 }
    | .error e => .error e
  | .jac x k, n =>
    match j x n with
    | .ok r => (k r.1).run o j h r.2
    | .error e => .error e
  | .hess x k, n =>
    match h x n with
    | .ok r => (k r.1).run o j h r.2
    | .error e => .error e

/-- numerics/__init__.py:6015-6079 `solve`: the counters are cleared, the guess is given in the representation of the solver and the solution in that of the guess; a method with no branch leaves the solution unbound.
`solvers name x0` is the solver of a name. -/
def solve (c : Config) (f : Obj) (J : Jac) (js hs : String → Vec → Proc Mat) (solvers : String → Vec → Solver) (x0 : Vec) : Py (Vec × Counts) :=
  if python_solvers.contains c.method || scipy_root_options.contains c.method || scipy_minimize_options.contains c.method then do
    let r ← (solvers c.method (rep (solver_numpy c), x0.2)).run (wrapCall (objf c) f) (jacobian c f J js) (hessian c f hs) {}
    return ((x0.1, r.1), r.2)
  else .error .unboundLocalError

/-- numerics/__init__.py:5627-5643 `residual_to_fixed_point` -/
def residual_to_fixed_point (f : List ℝ → Py (List ℝ)) (x : List ℝ) : Py (List ℝ) := do
  let r ← f x
  return r.map (- ·)

/-- numerics/__init__.py:3445-3447 `newton_err` -/
def newton_err (F : List ℝ) : ℝ := (F.map fun i => |i|).sum

/-- numerics/__init__.py:3449-3454 `basic_damping`; an index error if `dx` is shorter -/
def basic_damping (x dx : List ℝ) (damping : ℝ) : Py (List ℝ) :=
  if dx.length < x.length then .error .indexError else .ok (List.zipWith (fun a d => a + d * damping) x dx)

end Verif.SolverInterface
