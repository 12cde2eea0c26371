import Verif.Model.SolverInterface
import Verif.Lemmas.Tactic
import Mathlib.Analysis.Calculus.Deriv.Add
import Mathlib.Analysis.Calculus.Deriv.Pow
import Mathlib.Analysis.Calculus.Deriv.Mul

/-! # C131: the common interface to solvers -/

namespace Verif.SolverInterface

/-- a function of lists, or of arrays, computing `F` -/
def Computes (f : Obj) (numpy : Bool) (F : List ℝ → Py (List ℝ)) : Prop := ∀ xs, f (rep numpy, xs) = F xs >>= fun l => .ok (.vec (rep numpy) l)

/-- a function of lists, or of arrays, computing the number `g` -/
def ComputesNum (f : Obj) (numpy : Bool) (g : List ℝ → Py ℝ) : Prop := ∀ xs, f (rep numpy, xs) = g xs >>= fun y => .ok (.num y)

/-- what a solver is to see: the residuals in the given representation or, when minimizing, their sum of squares -/
def seen (F : List ℝ → Py (List ℝ)) (min : Bool) (r : Rep) (xs : List ℝ) : Py Val :=
  F xs >>= fun l => .ok (if min then .num (l.map (· ^ 2)).sum else .vec r l)

theorem sumsq_eq (l : List ℝ) : sumsq l = (l.map (· ^ 2)).sum := by
  unfold sumsq
  have : ∀ (l : List ℝ) (a : ℝ), l.foldl (fun tot v => tot + v * v) a = a + (l.map (· ^ 2)).sum := by
    intro l
    induction l with
    | nil => simp
    | cons x t ih => intro a; simp only [List.foldl_cons, ih, List.map_cons, List.sum_cons]; ring
  rw [this, zero_add]

/-- C131: the objective seen by the solver. Whether the function is written for lists or arrays, a solver asking in its own representation gets the residuals in it, or their sum of squares if it minimizes. -/
theorem C131_objective (c : Config) (hs : c.scalar_objective = false) (f : Obj) (F : List ℝ → Py (List ℝ)) (hf : Computes f c.objf_numpy F) (xs : List ℝ) :
    wrapCall (objf c) f (rep (solver_numpy c), xs) = seen F (minimizing c) (rep (solver_numpy c)) xs := by
  have h := hf xs
  unfold objf seen
  rw [hs]
  cases hm : minimizing c <;> cases hn : solver_numpy c <;> cases ho : c.objf_numpy <;> rw [ho] at h <;> simp only [rep, Bool.false_eq_true, if_false, if_true, Bool.not_true, Bool.not_false, wrapCall] at h ⊢ <;> rw [h] <;>
    cases F xs <;> simp [toArray, toList, sumsqVal, sumsq_eq, Py.pure_eq, Bind.bind, Except.bind]

/-- C131: the objective seen by the difference schemes of the jacobian and the hessian, likewise. -/
theorem C131_inner (c : Config) (hs : c.scalar_objective = false) (f : Obj) (F : List ℝ → Py (List ℝ)) (hf : Computes f c.objf_numpy F) (numpy : Bool) (xs : List ℝ) :
    wrapCall (innerObjf c numpy) f (rep numpy, xs) = seen F (minimizing c) (rep numpy) xs := by
  have h := hf xs
  unfold innerObjf seen
  rw [hs]
  cases hm : minimizing c <;> cases numpy <;> cases ho : c.objf_numpy <;> rw [ho] at h <;> simp only [rep, Bool.false_eq_true, if_false, if_true, Bool.not_true, Bool.not_false, wrapCall] at h ⊢ <;> rw [h] <;>
    cases F xs <;> simp [toArray, toList, sumsqVal, sumsq_eq, Py.pure_eq, Bind.bind, Except.bind]

/-- C131: a scalar objective is seen by the solver as the number it computes. -/
theorem C131_scalar_objective (c : Config) (hs : c.scalar_objective = true) (f : Obj) (g : List ℝ → Py ℝ) (hf : ComputesNum f c.objf_numpy g) (xs : List ℝ) :
    wrapCall (objf c) f (rep (solver_numpy c), xs) = g xs >>= fun y => .ok (.num y) := by
  have h := hf xs
  unfold objf
  rw [hs]
  cases hn : solver_numpy c <;> cases ho : c.objf_numpy <;> rw [ho] at h <;> simp only [rep, Bool.false_eq_true, if_false, if_true, Bool.not_true, Bool.not_false, wrapCall] at h ⊢ <;> rw [h] <;>
    cases g xs <;> simp [toFloat, Bind.bind, Except.bind]

/-- C131: difference schemes see it as the number too — except that (finding) a scalar objective written for arrays is called with a list by the default scheme of the jacobian and the hessian, whatever it does with it. -/
theorem C131_scalar_inner (c : Config) (hs : c.scalar_objective = true) (f : Obj) (g : List ℝ → Py ℝ) (hf : ComputesNum f c.objf_numpy g) (numpy : Bool) (xs : List ℝ) :
    wrapCall (innerObjf c numpy) f (rep numpy, xs) = if c.objf_numpy = true ∧ numpy = false then f (.list, xs) else g xs >>= fun y => .ok (.num y) := by
  have h := hf xs
  unfold innerObjf
  rw [hs]
  cases numpy <;> cases ho : c.objf_numpy <;> rw [ho] at h <;> simp only [rep, Bool.false_eq_true, if_false, if_true, wrapCall] at h ⊢ <;> simp <;> try rw [h]
  cases g xs <;> simp [toArray, Py.pure_eq, Bind.bind, Except.bind]

example : ∃ f : Obj, ComputesNum f true (fun xs => .ok xs.sum) ∧
    ∃ e, wrapCall (innerObjf { method := "newton_minimize", objf_numpy := true, scalar_objective := true } false) f (.list, [1]) = .error e := by
  refine ⟨fun x => if x.1 = .array then .ok (.num x.2.sum) else .error .typeError, fun xs => rfl, .typeError, ?_⟩
  simp [innerObjf, wrapCall]

/-- every question is asked in the representation `r` -/
inductive Proc.Speaks {α : Type} (r : Rep) : Proc α → Prop
  | ret (a : α) : Speaks r (.ret a)
  | fail (e : PyErr) : Speaks r (.fail e)
  | ask (x : Vec) (k : Val → Proc α) (hx : x.1 = r) (hk : ∀ v, Speaks r (k v)) : Speaks r (.ask x k)

theorem Proc.run_congr {α : Type} {r : Rep} {p : Proc α} (hp : p.Speaks r) (o o' : Vec → Py Val) (ho : ∀ xs, o (r, xs) = o' (r, xs)) : ∀ n, p.run o n = p.run o' n := by
  induction hp with
  | ret a => intro n; rfl
  | fail e => intro n; rfl
  | ask x k hx _ ih =>
    intro n
    obtain ⟨x1, x2⟩ := x
    simp only at hx
    subst hx
    unfold Proc.run
    rw [ho]
    cases o' (x1, x2) with
    | ok v => exact ih v _
    | error e => rfl

theorem Proc.run_shift {α : Type} (o : Vec → Py Val) (p : Proc α) : ∀ n, p.run o n = p.run o 0 >>= fun r => .ok (r.1, n + r.2) := by
  suffices ∀ m n, p.run o (m + n) = p.run o n >>= fun r => .ok (r.1, m + r.2) from fun n => this n 0
  induction p with
  | ret a => intro m n; rfl
  | fail e => intro m n; rfl
  | ask x k ih =>
    intro m n
    unfold Proc.run
    cases o x with
    | error e => rfl
    | ok v => exact ih v m (n + 1)

/-- C131: the jacobian by differences is the one the named scheme computes from the residuals (or their sum of squares), in the representation of the point; it adds one to the count of jacobians, the evaluations to their own count, and nothing to the evaluations of the solver.
(Finding: the name for backward differences runs the forward scheme.) -/
theorem C131_jacobian (c : Config) (hs : c.scalar_objective = false) (hm : jacobianMethod c ≠ "analytical") (f : Obj) (J : Jac) (F : List ℝ → Py (List ℝ)) (hf : Computes f c.objf_numpy F)
    (schemes : String → Vec → Proc Mat) (hsp : ∀ s r xs, (schemes s (r, xs)).Speaks r) (x : Vec) (n : Counts) :
    jacobian c f J schemes x n =
      if jacobianMethod c ∈ jacobian_schemes then
        (schemes (if jacobianMethod c = "jacobi_backward" then "jacobi_forward" else jacobianMethod c) (rep (jacobian_numpy c), x.2)).run (fun y => seen F (minimizing c) y.1 y.2) 0 >>= fun r =>
          .ok (⟨x.1, r.1.rows⟩, { n with jac_iter := n.jac_iter + 1, jac_fval_count := n.jac_fval_count + r.2 })
      else .error .unboundLocalError := by
  unfold jacobian
  rw [hs, show (jacobianMethod c == "analytical") = false by simpa using hm]
  simp only [Bool.not_false, Bool.and_false, Bool.false_eq_true, if_false]
  unfold schemeOf
  rw [hs]
  simp only [Bool.false_eq_true, if_false]
  by_cases h : jacobianMethod c ∈ jacobian_schemes
  · rw [if_pos (by simpa using h), if_pos h, Py.ok_bind]
    unfold schemeUsed
    rw [Proc.run_congr (hsp _ _ _) _ (fun y => seen F (minimizing c) y.1 y.2) (fun xs => C131_inner c hs f F hf _ xs), Proc.run_shift]
    cases Proc.run (fun y => seen F (minimizing c) y.1 y.2) (schemes (if jacobianMethod c = "jacobi_backward" then "jacobi_forward" else jacobianMethod c) (rep (jacobian_numpy c), x.2)) 0 with
    | error e => rfl
    | ok r =>
      show Except.ok _ = _
      simp only [Py.ok_bind, inRep, Nat.add_sub_cancel_left]
  · rw [if_neg (by simpa using h), if_neg h]
    rfl

/-- C131: the hessian likewise; the analytical one is not implemented. -/
theorem C131_hessian (c : Config) (hs : c.scalar_objective = false) (f : Obj) (F : List ℝ → Py (List ℝ)) (hf : Computes f c.objf_numpy F)
    (schemes : String → Vec → Proc Mat) (hsp : ∀ s r xs, (schemes s (r, xs)).Speaks r) (x : Vec) (n : Counts) :
    hessian c f schemes x n =
      if c.hessian_method = "analytical" then .error .notImplementedError
      else if c.hessian_method ∈ hessian_schemes then
        (schemes c.hessian_method (rep (hessian_numpy c), x.2)).run (fun y => seen F (minimizing c) y.1 y.2) 0 >>= fun r =>
          .ok (⟨x.1, r.1.rows⟩, { n with hess_iter := n.hess_iter + 1, hess_fval_count := n.hess_fval_count + r.2 })
      else .error .unboundLocalError := by
  unfold hessian hessianOf
  rw [hs]
  simp only [Bool.false_eq_true, if_false]
  by_cases h0 : c.hessian_method = "analytical"
  · rw [if_pos h0, if_pos h0]; rfl
  rw [if_neg h0, if_neg h0]
  by_cases h : c.hessian_method ∈ hessian_schemes
  · rw [if_pos (by simpa using h), if_pos h, Py.ok_bind, Proc.run_congr (hsp _ _ _) _ (fun y => seen F (minimizing c) y.1 y.2) (fun xs => C131_inner c hs f F hf _ xs), Proc.run_shift]
    cases Proc.run (fun y => seen F (minimizing c) y.1 y.2) (schemes c.hessian_method (rep (hessian_numpy c), x.2)) 0 with
    | error e => rfl
    | ok r =>
      show Except.ok _ = _
      simp only [Py.ok_bind, inRep, Nat.add_sub_cancel_left]
  · rw [if_neg (by simpa using h), if_neg h]
    rfl

theorem jacobian_counts (c : Config) (f : Obj) (J : Jac) (schemes : String → Vec → Proc Mat) (x : Vec) (n : Counts) (r : Mat × Counts) (h : jacobian c f J schemes x n = .ok r) :
    r.1.rep = x.1 ∧ r.2.fval_iter = n.fval_iter ∧ r.2.jac_iter = n.jac_iter + 1 ∧ r.2.hess_iter = n.hess_iter := by
  unfold jacobian at h
  split_ifs at h
  · obtain ⟨m, _, h⟩ := Py.bind_eq_ok.1 h
    obtain rfl := Except.ok.inj h
    exact ⟨rfl, rfl, rfl, rfl⟩
  · obtain ⟨p, _, h⟩ := Py.bind_eq_ok.1 h
    obtain ⟨q, _, h⟩ := Py.bind_eq_ok.1 h
    obtain rfl := Except.ok.inj h
    exact ⟨rfl, rfl, rfl, rfl⟩

theorem hessian_counts (c : Config) (f : Obj) (schemes : String → Vec → Proc Mat) (x : Vec) (n : Counts) (r : Mat × Counts) (h : hessian c f schemes x n = .ok r) :
    r.1.rep = x.1 ∧ r.2.fval_iter = n.fval_iter ∧ r.2.jac_iter = n.jac_iter ∧ r.2.hess_iter = n.hess_iter + 1 := by
  unfold hessian at h
  obtain ⟨p, _, h⟩ := Py.bind_eq_ok.1 h
  obtain ⟨q, _, h⟩ := Py.bind_eq_ok.1 h
  obtain rfl := Except.ok.inj h
  exact ⟨rfl, rfl, rfl, rfl⟩

/-- a run of a solver to a solution, with the numbers of values, jacobians and hessians it asked for -/
inductive Runs (o : Vec → Py Val) (j h : Vec → Mat → Prop) : Solver → List ℝ → ℕ → ℕ → ℕ → Prop
  | done (x : List ℝ) : Runs o j h (.done x) x 0 0 0
  | objf (x : Vec) (k : Val → Solver) (v : Val) (y : List ℝ) (a b d : ℕ) (hv : o x = .ok v) (hr : Runs o j h (k v) y a b d) : Runs o j h (.objf x k) y (a + 1) b d
  | jac (x : Vec) (k : Mat → Solver) (m : Mat) (y : List ℝ) (a b d : ℕ) (hm : j x m) (hr : Runs o j h (k m) y a b d) : Runs o j h (.jac x k) y a (b + 1) d
  | hess (x : Vec) (k : Mat → Solver) (m : Mat) (y : List ℝ) (a b d : ℕ) (hm : h x m) (hr : Runs o j h (k m) y a b d) : Runs o j h (.hess x k) y a b (d + 1)

theorem run_runs (o : Vec → Py Val) (j h : Vec → Counts → Py (Mat × Counts))
    (hj : ∀ x n r, j x n = .ok r → r.1.rep = x.1 ∧ r.2.fval_iter = n.fval_iter ∧ r.2.jac_iter = n.jac_iter + 1 ∧ r.2.hess_iter = n.hess_iter)
    (hh : ∀ x n r, h x n = .ok r → r.1.rep = x.1 ∧ r.2.fval_iter = n.fval_iter ∧ r.2.jac_iter = n.jac_iter ∧ r.2.hess_iter = n.hess_iter + 1) (s : Solver) :
    ∀ n y n', s.run o j h n = .ok (y, n') →
      n.fval_iter ≤ n'.fval_iter ∧ n.jac_iter ≤ n'.jac_iter ∧ n.hess_iter ≤ n'.hess_iter ∧
      Runs o (fun x m => ∃ n r, j x n = .ok r ∧ r.1 = m) (fun x m => ∃ n r, h x n = .ok r ∧ r.1 = m) s y (n'.fval_iter - n.fval_iter) (n'.jac_iter - n.jac_iter) (n'.hess_iter - n.hess_iter) := by
  induction s with
  | done x =>
    intro n y n' hr
    simp only [Solver.run] at hr
    cases hr
    simpa using Runs.done _
  | fail e => intro n y n' hr; simp [Solver.run] at hr
  | objf x k ih =>
    intro n y n' hr
    unfold Solver.run at hr
    cases ho : o x with
    | error e => rw [ho] at hr; simp at hr
    | ok v =>
      rw [ho] at hr
      obtain ⟨i1, i2, i3, i4⟩ := ih v _ y n' hr
      simp only at i1 i2 i3 i4
      refine ⟨by omega, i2, i3, ?_⟩
      have := Runs.objf x k v y _ _ _ ho i4
      rwa [show n'.fval_iter - (n.fval_iter + 1) + 1 = n'.fval_iter - n.fval_iter by omega] at this
  | jac x k ih =>
    intro n y n' hr
    unfold Solver.run at hr
    cases ho : j x n with
    | error e => rw [ho] at hr; simp at hr
    | ok r =>
      rw [ho] at hr
      obtain ⟨-, c1, c2, c3⟩ := hj x n r ho
      obtain ⟨i1, i2, i3, i4⟩ := ih r.1 _ y n' hr
      rw [c1] at i1 i4
      rw [c2] at i2 i4
      rw [c3] at i3 i4
      refine ⟨i1, by omega, i3, ?_⟩
      have := Runs.jac x k r.1 y _ _ _ ⟨n, r, ho, rfl⟩ i4
      rwa [show n'.jac_iter - (n.jac_iter + 1) + 1 = n'.jac_iter - n.jac_iter by omega] at this
  | hess x k ih =>
    intro n y n' hr
    unfold Solver.run at hr
    cases ho : h x n with
    | error e => rw [ho] at hr; simp at hr
    | ok r =>
      rw [ho] at hr
      obtain ⟨-, c1, c2, c3⟩ := hh x n r ho
      obtain ⟨i1, i2, i3, i4⟩ := ih r.1 _ y n' hr
      rw [c1] at i1 i4
      rw [c2] at i2 i4
      rw [c3] at i3 i4
      refine ⟨i1, i2, by omega, ?_⟩
      have := Runs.hess x k r.1 y _ _ _ ⟨n, r, ho, rfl⟩ i4
      rwa [show n'.hess_iter - (n.hess_iter + 1) + 1 = n'.hess_iter - n.hess_iter by omega] at this

/-- C131: a solution comes from a run of the named solver, started at the guess in the solver's own representation, on the objective, jacobian and hessian of the interface; it is returned in the representation of the guess,
and the counters are the numbers of values, jacobians and hessians the solver asked for. -/
theorem C131_solve (c : Config) (f : Obj) (J : Jac) (js hs : String → Vec → Proc Mat) (solvers : String → Vec → Solver) (x0 : Vec) (y : Vec) (n : Counts)
    (h : solve c f J js hs solvers x0 = .ok (y, n)) :
    y.1 = x0.1 ∧ Runs (wrapCall (objf c) f) (fun x m => ∃ k r, jacobian c f J js x k = .ok r ∧ r.1 = m) (fun x m => ∃ k r, hessian c f hs x k = .ok r ∧ r.1 = m)
      (solvers c.method (rep (solver_numpy c), x0.2)) y.2 n.fval_iter n.jac_iter n.hess_iter := by
  unfold solve at h
  split_ifs at h
  obtain ⟨r, hr, h⟩ := Py.bind_eq_ok.1 h
  cases h
  have := run_runs _ _ _ (fun x n r => jacobian_counts c f J js x n r) (fun x n r => hessian_counts c f hs x n r) _ _ _ _ hr
  exact ⟨rfl, by simpa using this.2.2.2⟩

/-- C131: the methods. Exactly the listed names start a solver, the Python solvers with lists and the others with arrays; another name raises UnboundLocalError. -/
theorem C131_methods (c : Config) (f : Obj) (J : Jac) (js hs : String → Vec → Proc Mat) (solvers : String → Vec → Solver) (x0 : Vec) :
    (c.method ∉ python_solvers ++ scipy_root_options ++ scipy_minimize_options → solve c f J js hs solvers x0 = .error .unboundLocalError) ∧
    (c.method ∈ python_solvers ++ scipy_root_options ++ scipy_minimize_options → (∀ x, solvers c.method (rep (solver_numpy c), x0.2) = .done x → solve c f J js hs solvers x0 = .ok ((x0.1, x), {}))) ∧
    (rep (solver_numpy c) = .list ↔ c.method ∈ python_solvers) := by
  refine ⟨fun h => ?_, fun h x hx => ?_, ?_⟩
  · unfold solve
    rw [if_neg]
    simpa [not_or, List.mem_append, and_assoc] using h
  · unfold solve
    rw [if_pos (by simpa [List.mem_append, or_assoc] using h), hx]
    rfl
  · unfold rep solver_numpy
    by_cases h : c.method ∈ python_solvers
    · have : python_solvers.contains c.method = true := by simpa using h
      simp [this, h]
    · have : python_solvers.contains c.method = false := by simpa using h
      simp [this, h]

/-- a difference scheme for one variable -/
noncomputable def demoScheme (_ : String) (x : Vec) : Proc Mat := .ask x fun a => .ask (x.1, x.2.map (· + 1)) fun b =>
  match a, b with
  | .vec _ [p], .vec _ [q] => .ret ⟨x.1, [[q - p]]⟩
  | _, _ => .fail .typeError

theorem demoScheme_speaks (s : String) (r : Rep) (xs : List ℝ) : (demoScheme s (r, xs)).Speaks r := by
  refine .ask _ _ rfl fun a => .ask _ _ rfl fun b => ?_
  dsimp only
  split
  · exact .ret _
  · exact .fail _

example : jacobian { method := "newton_system", objf_numpy := true } (fun x => if x.1 = .array then .ok (.vec .array (x.2.map (· ^ 2))) else .error .typeError) (fun _ => .error .typeError) demoScheme (.list, [3]) {} =
    .ok (⟨.list, [[7]]⟩, { jac_iter := 1, jac_fval_count := 2 }) := by
  rw [C131_jacobian _ rfl (by simp [jacobianMethod, minimizing, scipy_minimize_options]) _ _ (fun xs => .ok (xs.map (· ^ 2))) (fun xs => by simp [rep, Bind.bind, Except.bind]) demoScheme demoScheme_speaks]
  simp [jacobianMethod, minimizing, scipy_minimize_options, jacobian_schemes, demoScheme, Proc.run, seen, rep, jacobian_numpy, Bind.bind, Except.bind]
  norm_num

/-! ### the gradient of the sum of squares -/

theorem foldl_add (g : ℕ → ℝ) (l : List ℕ) (a : ℝ) : l.foldl (fun t j => t + g j) a = a + (l.map g).sum := by
  induction l generalizing a with
  | nil => simp
  | cons x t ih => simp only [List.foldl_cons, ih, List.map_cons, List.sum_cons]; ring

theorem hasDerivAt_sumsq (F : ℕ → ℝ → ℝ) (F' : ℕ → ℝ) (t : ℝ) (l : List ℕ) (h : ∀ j ∈ l, HasDerivAt (F j) (F' j) t) :
    HasDerivAt (fun s => ((l.map fun j => F j s).map (· ^ 2)).sum) (2 * (l.map fun j => F j t * F' j).sum) t := by
  induction l with
  | nil => simpa using hasDerivAt_const t (0 : ℝ)
  | cons j l ih =>
    have h1 := (h j (by simp)).pow 2
    have h2 := ih fun i hi => h i (by simp [hi])
    have := h1.add h2
    simp only [List.map_cons, List.sum_cons]
    refine this.congr_deriv ?_
    simp
    ring

/-- C131: with the analytical method the jacobian function given is called once, in its own representation, and its rows come back in the representation of the point; nothing is counted but the jacobian. When a scalar is minimised the rows are the gradient formed from the residuals and the jacobian. -/
theorem C131_analytical (c : Config) (hs : c.scalar_objective = false) (hm : jacobianMethod c = "analytical") (f : Obj) (J : Jac) (F : List ℝ → Py (List ℝ)) (hf : Computes f c.objf_numpy F)
    (schemes : String → Vec → Proc Mat) (x : Vec) (n : Counts) (m : Mat) (hJ : J (if c.objf_numpy then .array else .list, x.2) = .ok m) (l : List ℝ) (hl : F x.2 = .ok l) :
    jacobian c f J schemes x n =
      if minimizing c then (if c.objf_numpy then jacMinimizingNumpy l m.rows x.2.length else jacMinimizing l m.rows) >>= fun g => .ok (⟨x.1, [g]⟩, { n with jac_iter := n.jac_iter + 1 })
      else .ok (⟨x.1, m.rows⟩, { n with jac_iter := n.jac_iter + 1 }) := by
  unfold jacobian analyticalJac
  rw [hs, hm]
  simp only [Bool.not_false, beq_self_eq_true, Bool.and_self, if_true]
  have h1 := hf x.2
  cases hn : c.objf_numpy <;> rw [hn] at hJ h1 <;> simp only [rep, if_true, if_false, Bool.false_eq_true] at hJ h1 ⊢ <;> by_cases hmin : minimizing c = true <;>
    simp only [hmin, if_true, if_false, Bool.false_eq_true, hJ, h1, hl, Py.ok_bind, Py.pure_eq, inRep, Val.entries, bind_assoc]
  all_goals first | rfl | skip

/-- C131: the gradient. For a system of as many residuals as variables, the gradient formed from the analytical jacobian is that of the sum of the squares: entry `i` is its derivative along variable `i`. -/
theorem C131_gradient (N : ℕ) (F : ℕ → ℝ → ℝ) (J : List (List ℝ)) (i : ℕ) (hi : i < N) (t : ℝ) (hJ : ∀ j < N, N ≤ (J.getD j []).length) (hF : ∀ j < N, HasDerivAt (F j) ((J.getD j []).getD i 0) t) :
    ∃ g, jacMinimizing ((List.range N).map fun j => F j t) J = .ok g ∧ g.length = N ∧ HasDerivAt (fun s => sumsq ((List.range N).map fun j => F j s)) (g.getD i 0) t := by
  unfold jacMinimizing
  rw [if_pos (by simpa using hJ)]
  refine ⟨_, rfl, by simp, ?_⟩
  simp only [sumsq_eq]
  refine (hasDerivAt_sumsq F (fun j => (J.getD j []).getD i 0) t (List.range N) fun j hj => hF j (List.mem_range.1 hj)).congr_deriv ?_
  simp only [List.length_map, List.length_range]
  rw [List.getD_eq_getElem?_getD, List.getElem?_map, List.getElem?_range hi, Option.map_some, Option.getD_some, foldl_add (fun j => ((List.range N).map fun j => F j t).getD j 0 * (J.getD j []).getD i 0)]
  rw [zero_add]
  congr 2
  refine List.map_congr_left fun j hj => ?_
  have := List.mem_range.1 hj
  simp [List.getD_eq_getElem?_getD, List.getElem?_map, List.getElem?_range this]

/-- C131: the same for functions of arrays, for any number of variables. -/
theorem C131_gradient_numpy (N cols : ℕ) (F : ℕ → ℝ → ℝ) (J : List (List ℝ)) (hl : J.length = N) (i : ℕ) (hi : i < cols) (t : ℝ) (hF : ∀ j < N, HasDerivAt (F j) ((J.getD j []).getD i 0) t) :
    ∃ g, jacMinimizingNumpy ((List.range N).map fun j => F j t) J cols = .ok g ∧ g.length = cols ∧ HasDerivAt (fun s => sumsq ((List.range N).map fun j => F j s)) (g.getD i 0) t := by
  unfold jacMinimizingNumpy
  rw [if_pos (by simp [hl])]
  refine ⟨_, rfl, by simp, ?_⟩
  simp only [sumsq_eq]
  refine (hasDerivAt_sumsq F (fun j => (J.getD j []).getD i 0) t (List.range N) fun j hj => hF j (List.mem_range.1 hj)).congr_deriv ?_
  simp only [List.length_map, List.length_range]
  rw [List.getD_eq_getElem?_getD, List.getElem?_map, List.getElem?_range hi, Option.map_some, Option.getD_some, foldl_add (fun j => ((List.range N).map fun j => F j t).getD j 0 * (J.getD j []).getD i 0)]
  rw [zero_add]
  congr 2
  refine List.map_congr_left fun j hj => ?_
  have := List.mem_range.1 hj
  simp [List.getD_eq_getElem?_getD, List.getElem?_map, List.getElem?_range this]

/-- C131: finding. For functions of lists with other numbers of residuals than variables the gradient is not formed: with more residuals it raises IndexError, with fewer it has the length of the residuals. -/
theorem C131_gradient_shape (f : List ℝ) (J : List (List ℝ)) (cols : ℕ) (hJ : ∀ r ∈ J, r.length = cols) (hl : J.length = f.length) (h0 : f ≠ []) :
    (cols < f.length → jacMinimizing f J = .error .indexError) ∧ (f.length ≤ cols → ∃ g, jacMinimizing f J = .ok g ∧ g.length = f.length) := by
  have hrow : ∀ j < f.length, (J.getD j []).length = cols := by
    intro j hj
    rw [List.getD_eq_getElem?_getD, List.getElem?_eq_getElem (hl ▸ hj), Option.getD_some]
    exact hJ _ (List.getElem_mem _)
  have hpos := List.length_pos_iff.2 h0
  unfold jacMinimizing
  constructor
  · intro h
    rw [if_neg]
    simp only [List.all_eq_true, List.mem_range, decide_eq_true_eq, not_forall]
    exact ⟨0, hpos, by rw [hrow 0 hpos]; omega⟩
  · intro h
    rw [if_pos]
    · exact ⟨_, rfl, by simp⟩
    · simp only [List.all_eq_true, List.mem_range, decide_eq_true_eq]
      intro j hj
      rw [hrow j hj]; exact h

example : jacMinimizing [1, 2, 3] [[1], [1], [1]] = .error .indexError := (C131_gradient_shape [1, 2, 3] [[1], [1], [1]] 1 (by simp) (by simp) (by simp)).1 (by simp)

/-! ### small helpers -/

/-- C131: the error norm of a system is zero exactly at a solution, a damped step moves each variable by the damped change, and the fixed point form vanishes where the residuals do. -/
theorem C131_helpers (F x dx : List ℝ) (d : ℝ) (hl : x.length = dx.length) (f : List ℝ → Py (List ℝ)) :
    (0 ≤ newton_err F ∧ (newton_err F = 0 ↔ ∀ v ∈ F, v = 0)) ∧
    (∃ r, basic_damping x dx d = .ok r ∧ r.length = x.length ∧ ∀ i < x.length, r.getD i 0 = x.getD i 0 + d * dx.getD i 0) ∧
    (∀ l, f x = .ok l → ∃ r, residual_to_fixed_point f x = .ok r ∧ ((∀ v ∈ r, v = 0) ↔ ∀ v ∈ l, v = 0) ∧ List.zipWith (· + ·) r l = l.map fun _ => 0) := by
  refine ⟨?_, ?_, ?_⟩
  · unfold newton_err
    have h0 : 0 ≤ (F.map fun i => |i|).sum := List.sum_nonneg (by intro v hv; obtain ⟨w, _, rfl⟩ := List.mem_map.1 hv; exact abs_nonneg w)
    refine ⟨h0, ?_⟩
    clear h0
    induction F with
    | nil => simp
    | cons a t ih =>
      have h1 : 0 ≤ (t.map fun i => |i|).sum := List.sum_nonneg (by intro v hv; obtain ⟨w, _, rfl⟩ := List.mem_map.1 hv; exact abs_nonneg w)
      simp only [List.map_cons, List.sum_cons, List.mem_cons, forall_eq_or_imp]
      rw [← ih, add_eq_zero_iff_of_nonneg (abs_nonneg a) h1, abs_eq_zero]
  · unfold basic_damping
    rw [if_neg (by omega)]
    refine ⟨_, rfl, by simp [hl], fun i hi => ?_⟩
    simp [List.getD_eq_getElem?_getD, List.getElem?_zipWith, List.getElem?_eq_getElem hi, List.getElem?_eq_getElem (hl ▸ hi)]
    ring
  · intro l hfl
    unfold residual_to_fixed_point
    rw [hfl]
    refine ⟨_, rfl, ?_, ?_⟩
    · simp only [List.mem_map]
      exact ⟨fun h v hv => neg_eq_zero.1 (h (-v) ⟨v, hv, rfl⟩), fun h v ⟨w, hw, e⟩ => by rw [← e, h w hw, neg_zero]⟩
    clear hfl
    induction l with
    | nil => rfl
    | cons a t ih => simp only [List.map_cons, List.zipWith_cons_cons, ih]; simp

end Verif.SolverInterface
