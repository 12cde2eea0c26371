import Verif.Model.Systems
import Mathlib.Algebra.Order.Archimedean.Basic
import Mathlib.Tactic

/-! C120: solvers for systems of equations. -/

namespace Verif.Systems
open Verif Verif.Solve
variable {K : Type _} [Field K] [LinearOrder K]

/-- the sum of absolute values -/
def l1 (F : List K) : K := (F.map fun v => |v|).sum

lemma absSum_l1 (F : List K) : absSum F = l1 F := by
  have : ∀ (l : List K) (a : K), l.foldl (fun e v => e + |v|) a = a + (l.map fun v => |v|).sum := by
    intro l
    induction l with
    | nil => simp
    | cons b l ih => intro a; rw [List.foldl_cons, ih]; simp [add_assoc]
  rw [absSum, this, zero_add]; rfl

/-- every tolerance asked for is met by the residuals -/
def Meets (norm2 : List K → K) (xtol ytol : Option K) (F : List K) : Prop := (∀ xt ∈ xtol, norm2 F ≤ xt) ∧ ∀ yt ∈ ytol, l1 F ≤ yt

/-- objective (and Jacobian when the objective returns it) never raise -/
def Total (o : NewtonOpts K) : Prop := (∀ y, ∃ G, o.f y = .ok G) ∧ (o.jac_also = true → ∀ y, ∃ J, o.jac y = .ok J)

lemma evalBoth_ok {o : NewtonOpts K} {x : List K} {r} (h : evalBoth o x = .ok r) : o.f x = .ok r.1 ∧ (o.jac_also = true → ∃ J, r.2 = some J) ∧ (o.jac_also = false → r.2 = none) := by
  unfold evalBoth at h
  obtain ⟨F, hF, h⟩ := Py.bind_eq_ok.1 h
  by_cases j : o.jac_also = true
  · rw [if_pos j] at h
    obtain ⟨J, -, h⟩ := Py.bind_eq_ok.1 h
    obtain rfl := Except.ok.inj h
    exact ⟨hF, fun _ => ⟨J, rfl⟩, fun e => by rw [j] at e; cases e⟩
  · rw [if_neg j] at h
    obtain rfl := Except.ok.inj h
    exact ⟨hF, fun e => absurd e j, fun _ => rfl⟩

lemma evalBoth_total {o : NewtonOpts K} (h : Total o) (x : List K) : ∃ r, evalBoth o x = .ok r := by
  obtain ⟨F, hF⟩ := h.1 x
  unfold evalBoth
  rw [hF, Py.ok_bind]
  by_cases j : o.jac_also = true
  · obtain ⟨J, hJ⟩ := h.2 j x
    rw [if_pos j, hJ, Py.ok_bind]
    exact ⟨_, rfl⟩
  · rw [if_neg j]
    exact ⟨_, rfl⟩

/-- the error kept with a trial is that of its residuals -/
def ErrOk (t : Trial K) : Prop := t.err_new = t.fnew.map absSum
/-- a trial's residuals are those of its point -/
def Fresh (o : NewtonOpts K) (t : Trial K) : Prop := ∀ y F, t.xnew = some y → t.fnew = some F → o.f y = .ok F

lemma lineSearch_err {o : NewtonOpts K} {x dx fcur : List K} {j : List (List K)} {err0 : K} (fs : List K) :
    ∀ {t t' : Trial K}, ErrOk t → lineSearch o x dx fcur j err0 fs t = .ok t' → ErrOk t' := by
  induction fs with
  | nil => intro t t' ht h; obtain rfl := Except.ok.inj h; exact ht
  | cons a fs ih =>
    intro t t' ht h
    rw [lineSearch] at h
    obtain ⟨xnew, -, h⟩ := Py.bind_eq_ok.1 h
    match e : evalBoth o xnew, h with
    | .error _, h => exact ih (t := { t with xnew := some xnew }) ht h
    | .ok (fnew, J), h =>
      dsimp only at h
      split_ifs at h with c c'
      · obtain rfl := Except.ok.inj h; rfl
      · obtain rfl := Except.ok.inj h; rfl
      · exact ih (by rfl) h
      · exact ih (by rfl) h

lemma lineSearch_fresh {o : NewtonOpts K} (ho : Total o) {x dx fcur : List K} {j : List (List K)} {err0 : K} (fs : List K) :
    ∀ {t t' : Trial K}, Fresh o t → lineSearch o x dx fcur j err0 fs t = .ok t' → Fresh o t' := by
  induction fs with
  | nil => intro t t' ht h; obtain rfl := Except.ok.inj h; exact ht
  | cons a fs ih =>
    intro t t' ht h
    rw [lineSearch] at h
    obtain ⟨xnew, -, h⟩ := Py.bind_eq_ok.1 h
    match e : evalBoth o xnew, h with
    | .error e', h =>
      obtain ⟨r, hr⟩ := evalBoth_total ho xnew
      rw [hr] at e; cases e
    | .ok (fnew, J), h =>
      have hf := (evalBoth_ok e).1
      have fr : ∀ (a : Option (List (List K))) (b : Option K) (c : Bool), Fresh o ⟨some xnew, some fnew, a, b, c⟩ := by
        intro a b c y F hy hF
        obtain rfl := Option.some.inj hy
        obtain rfl := Option.some.inj hF
        exact hf
      dsimp only at h
      split_ifs at h with c c'
      · obtain rfl := Except.ok.inj h; exact fr _ _ _
      · obtain rfl := Except.ok.inj h; exact fr _ _ _
      · exact ih (fr _ _ _) h
      · exact ih (fr _ _ _) h

lemma takeTrial_ok {o : NewtonOpts K} {s s' : NewtonSt K} {j : List (List K)} {t : Trial K} (ht : ErrOk t) (h : takeTrial o s j t = .ok s') :
    t.xnew = some s'.x ∧ t.fnew = some s'.fcur ∧ s'.err0 = absSum s'.fcur ∧ s'.iteration = s.iteration + 1 ∧ s'.t.xnew = t.xnew ∧ s'.t.fnew = t.fnew ∧ s'.t.err_new = t.err_new ∧
    (o.require_progress = true → s'.err0 < s.err0) := by
  unfold takeTrial at h
  match hx : t.xnew, hf : t.fnew, he : t.err_new, h with
  | some xnew, some fnew, some err, h =>
    have e : err = absSum fnew := by
      have := ht
      unfold ErrOk at this
      rw [he, hf] at this
      exact Option.some.inj this
    dsimp only at h
    split_ifs at h with c1 c2 c3 c4
    · obtain rfl := Except.ok.inj h
      exact ⟨rfl, rfl, e, rfl, by first | rfl | exact hx, by first | rfl | exact hf, by first | rfl | exact he, fun h => absurd h c3⟩
    · obtain ⟨J, -, h⟩ := Py.bind_eq_ok.1 h
      obtain rfl := Except.ok.inj h
      exact ⟨rfl, rfl, e, rfl, rfl, rfl, rfl, fun h => absurd h c3⟩
    · obtain rfl := Except.ok.inj h
      exact ⟨rfl, rfl, e, rfl, by first | rfl | exact hx, by first | rfl | exact hf, by first | rfl | exact he, fun _ => not_le.1 c2⟩
  | none, _, _, h => cases h
  | some _, none, _, h => cases h
  | some _, some _, none, h => cases h

lemma nextJ_ok {o : NewtonOpts K} {s s' : NewtonSt K} (h : nextJ o s = .ok s') :
    s'.x = s.x ∧ s'.fcur = s.fcur ∧ s'.err0 = s.err0 ∧ s'.iteration = s.iteration ∧ s'.t.xnew = s.t.xnew ∧ s'.t.fnew = s.t.fnew ∧ s'.t.err_new = s.t.err_new := by
  unfold nextJ at h
  obtain ⟨jn, -, h⟩ := Py.bind_eq_ok.1 h
  obtain ⟨j, -, h⟩ := Py.bind_eq_ok.1 h
  obtain rfl := Except.ok.inj h
  exact ⟨rfl, rfl, rfl, rfl, rfl, rfl, rfl⟩

/-- what holds between passes -/
structure Inv (o : NewtonOpts K) (F0 : List K) (s : NewtonSt K) : Prop where
  err : s.err0 = absSum s.fcur
  terr : ErrOk s.t
  fresh : Total o → o.f s.x = .ok s.fcur ∧ Fresh o s.t
  it : 1 ≤ s.iteration
  prog : o.require_progress = true → absSum s.fcur ≤ absSum F0 ∧ (1 < s.iteration → absSum s.fcur < absSum F0)

lemma loop_inv {o : NewtonOpts K} {F0 : List K} (fuel : ℕ) : ∀ {s r : NewtonSt K}, Inv o F0 s → newtonLoop o fuel s = .ok r →
    Inv o F0 r ∧ (r.iteration ≤ max s.iteration o.maxiter) ∧ (o.maxiter ≤ fuel + s.iteration → converged o r.fcur = true ∨ o.maxiter ≤ r.iteration) := by
  induction fuel with
  | zero =>
    intro s r hs h
    obtain rfl := Except.ok.inj h
    exact ⟨hs, le_max_left _ _, fun h => .inr (by simpa using h)⟩
  | succ fuel ih =>
    intro s r hs h
    rw [newtonLoop] at h
    by_cases c : s.iteration < o.maxiter
    · rw [if_pos c] at h
      obtain ⟨dj, -, h⟩ := Py.bind_eq_ok.1 h
      obtain ⟨t, ht, h⟩ := Py.bind_eq_ok.1 h
      obtain ⟨s', hs', h⟩ := Py.bind_eq_ok.1 h
      have et := lineSearch_err _ hs.terr ht
      obtain ⟨a1, a2, a3, a4, a5, a6, a7, a8⟩ := takeTrial_ok et hs'
      have I' : Inv o F0 s' := by
        refine ⟨a3, ?_, ?_, by omega, ?_⟩
        · unfold ErrOk; rw [a6, a7]; exact et
        · intro ho
          have fr := lineSearch_fresh ho _ (hs.fresh ho).2 ht
          refine ⟨fr _ _ a1 a2, ?_⟩
          intro y F hy hF
          rw [a5] at hy; rw [a6] at hF
          exact fr y F hy hF
        · intro hp
          have h1 := a8 hp
          rw [a3, hs.err] at h1
          exact ⟨h1.le.trans (hs.prog hp).1, fun _ => h1.trans_le (hs.prog hp).1⟩
      by_cases cv : converged o s'.fcur = true
      · rw [if_pos cv] at h
        obtain rfl := Except.ok.inj h
        refine ⟨I', ?_, fun _ => .inl cv⟩
        rw [a4]; exact le_max_of_le_right c
      · rw [if_neg cv] at h
        obtain ⟨s'', hs'', h⟩ := Py.bind_eq_ok.1 h
        obtain ⟨b1, b2, b3, b4, b5, b6, b7⟩ := nextJ_ok hs''
        have I'' : Inv o F0 s'' := by
          refine ⟨by rw [b3, b2]; exact I'.err, ?_, ?_, by rw [b4]; exact I'.it, by rw [b2, b4]; exact I'.prog⟩
          · unfold ErrOk; rw [b6, b7]; exact I'.terr
          · intro ho
            rw [b1, b2]
            refine ⟨(I'.fresh ho).1, fun y F hy hF => ?_⟩
            rw [b5] at hy; rw [b6] at hF
            exact (I'.fresh ho).2 y F hy hF
        obtain ⟨J1, J2, J3⟩ := ih I'' h
        refine ⟨J1, ?_, fun hm => J3 (by rw [b4, a4]; omega)⟩
        rw [b4, a4] at J2
        exact J2.trans (max_le (le_max_of_le_right c) (le_max_right _ _))
    · rw [if_neg c] at h
      obtain rfl := Except.ok.inj h
      exact ⟨hs, le_max_left _ _, fun _ => .inr (not_lt.1 c)⟩

/-- C120: what `newton_system` returns. Either the start itself, when only `ytol` is given and the start already meets it; or a point, an iteration count between one and `maxiter`, and residuals that
meet every tolerance asked for, with `require_progress` smaller in sum than those of the start as soon as a step was made. For an objective that never raises these are the residuals of the point
returned. Without any tolerance every pass is made. -/
theorem C120_newton_sound {o : NewtonOpts K} {x0 : List K} :
    (∀ x, newton_system o x0 = .ok (.early x) → x = x0 ∧ o.xtol = none ∧ ∃ F yt, o.f x0 = .ok F ∧ o.ytol = some yt ∧ l1 F < yt) ∧
    (∀ x n F J, newton_system o x0 = .ok (.done x n F J) →
      Meets o.norm2 o.xtol o.ytol F ∧ 1 ≤ n ∧ n ≤ max 1 o.maxiter ∧ (Total o → o.f x = .ok F) ∧
      (o.require_progress = true → ∃ F0, o.f x0 = .ok F0 ∧ l1 F ≤ l1 F0 ∧ (1 < n → l1 F < l1 F0)) ∧
      (o.xtol = none → o.ytol = none → n = max 1 o.maxiter)) := by
  have main : ∀ r, newton_system o x0 = .ok r → ∃ F0, o.f x0 = .ok F0 ∧ ((o.xtol = none ∧ (∃ yt ∈ o.ytol, absSum F0 < yt) ∧ r = .early x0) ∨
      ∃ s j, newtonLoop o o.maxiter ⟨x0, F0, j, absSum F0, 1, ⟨none, none, none, none, true⟩⟩ = .ok s ∧ (¬∃ xt ∈ o.xtol, o.norm2 s.fcur > xt) ∧ (¬∃ yt ∈ o.ytol, absSum s.fcur > yt) ∧
        r = .done s.x s.iteration s.fcur s.j) := by
    intro r h
    unfold newton_system at h
    obtain ⟨FJ, hFJ, h⟩ := Py.bind_eq_ok.1 h
    refine ⟨FJ.1, (evalBoth_ok hFJ).1, ?_⟩
    by_cases c : o.xtol = none ∧ ∃ yt ∈ o.ytol, absSum FJ.1 < yt
    · rw [if_pos c] at h
      exact .inl ⟨c.1, c.2, (Except.ok.inj h).symm⟩
    · rw [if_neg c] at h
      obtain ⟨j1, -, h⟩ := Py.bind_eq_ok.1 h
      obtain ⟨j, -, h⟩ := Py.bind_eq_ok.1 h
      obtain ⟨s, hs, h⟩ := Py.bind_eq_ok.1 h
      by_cases c1 : ∃ xt ∈ o.xtol, o.norm2 s.fcur > xt
      · rw [if_pos c1] at h; cases h
      rw [if_neg c1] at h
      by_cases c2 : ∃ yt ∈ o.ytol, absSum s.fcur > yt
      · rw [if_pos c2] at h; cases h
      rw [if_neg c2] at h
      exact .inr ⟨s, j, hs, c1, c2, (Except.ok.inj h).symm⟩
  constructor
  · intro x h
    obtain ⟨F0, hF0, ⟨hx, ⟨yt, hy, hlt⟩, e⟩ | ⟨s, j, -, -, -, e⟩⟩ := main _ h
    · injection e with e
      exact ⟨e, hx, F0, yt, hF0, hy, by rw [← absSum_l1]; exact hlt⟩
    · cases e
  · intro x n F J h
    obtain ⟨F0, hF0, ⟨-, -, e⟩ | ⟨s, j, hs, c1, c2, e⟩⟩ := main _ h
    · cases e
    injection e with e1 e2 e3 e4
    have I0 : Inv o F0 ⟨x0, F0, j, absSum F0, 1, ⟨none, none, none, none, true⟩⟩ :=
      ⟨rfl, rfl, fun _ => ⟨hF0, fun y F hy => by cases hy⟩, le_rfl, fun _ => ⟨le_rfl, fun h => absurd h (lt_irrefl _)⟩⟩
    obtain ⟨I, b, cv⟩ := loop_inv _ I0 hs
    subst e1 e2 e3
    refine ⟨⟨fun xt hx => ?_, fun yt hy => ?_⟩, I.it, b, fun ho => (I.fresh ho).1, fun hp => ⟨F0, hF0, ?_, ?_⟩, fun hx hy => ?_⟩
    · by_contra hh; exact c1 ⟨xt, hx, not_le.1 hh⟩
    · by_contra hh; exact c2 ⟨yt, hy, by rw [absSum_l1]; exact not_le.1 hh⟩
    · rw [← absSum_l1, ← absSum_l1]; exact (I.prog hp).1
    · rw [← absSum_l1, ← absSum_l1]; exact (I.prog hp).2
    · rcases cv (by omega) with cc | cc
      · unfold converged at cc
        rw [hx, hy] at cc; cases cc
      · exact le_antisymm b (max_le I.it cc)

/-! #### errors -/

/-- no callable raises -/
def AllTotal (o : NewtonOpts K) : Prop := (∀ y, ∃ G, o.f y = .ok G) ∧ (∀ y, ∃ J, o.jac y = .ok J) ∧ (∀ y, ∃ J, o.numjac y = .ok J) ∧ (∀ j v, ∃ d, o.solve_func j v = .ok d) ∧
  ∀ d ∈ o.damping_func, ∀ x dx k, ∃ y, d x dx k = .ok y

lemma lineSearch_total {o : NewtonOpts K} (ho : AllTotal o) (hA : o.Armijo = false) {x dx fcur : List K} {j : List (List K)} {err0 : K} (fs : List K) :
    ∀ t : Trial K, ∃ t', lineSearch o x dx fcur j err0 fs t = .ok t' ∧ ((fs = [] ∧ t' = t) ∨ ∃ y F e, t'.xnew = some y ∧ t'.fnew = some F ∧ t'.err_new = some e ∧
      (o.jac_also = true → ∃ J, t'.jnew = some J) ∧ (o.jac_also = false → t'.jac_updated = false ∨ err0 ≤ e)) := by
  induction fs with
  | nil => intro t; exact ⟨t, rfl, .inl ⟨rfl, rfl⟩⟩
  | cons a fs ih =>
    intro t
    have hp : ∃ y, tryPoint o x dx a = .ok y := by
      unfold tryPoint
      match h : o.damping_func with
      | none => exact ⟨_, rfl⟩
      | some d => exact ho.2.2.2.2 d h _ _ _
    obtain ⟨xnew, hx⟩ := hp
    obtain ⟨⟨fnew, J⟩, hr⟩ := evalBoth_total (o := o) ⟨ho.1, fun _ => ho.2.1⟩ xnew
    have hk := evalBoth_ok hr
    rw [lineSearch, hx, Py.ok_bind, hr]
    dsimp only
    by_cases c : absSum fnew < err0 ∧ accepts o fcur j a fnew = true
    · rw [if_pos c]
      refine ⟨_, rfl, .inr ⟨xnew, fnew, absSum fnew, ?_, ?_, ?_, ?_, ?_⟩⟩
      · split_ifs <;> rfl
      · split_ifs <;> rfl
      · split_ifs <;> rfl
      · intro ja
        obtain ⟨J', hJ'⟩ := hk.2.1 ja
        rw [if_pos ja, if_pos ja]
        exact ⟨J', hJ'⟩
      · intro ja
        rw [if_neg (by rw [ja]; decide)]
        exact .inl rfl
    · rw [if_neg c]
      obtain ⟨t', h1, h2⟩ := ih ⟨some xnew, some fnew, if o.jac_also = true then J else t.jnew, some (absSum fnew), if o.jac_also = true then true else t.jac_updated⟩
      refine ⟨t', h1, .inr ?_⟩
      rcases h2 with ⟨-, rfl⟩ | h2
      · refine ⟨xnew, fnew, absSum fnew, rfl, rfl, rfl, fun ja => ?_, fun ja => .inr ?_⟩
        · obtain ⟨J', hJ'⟩ := hk.2.1 ja
          rw [if_pos ja]
          exact ⟨J', hJ'⟩
        · have : accepts o fcur j a fnew = true := by unfold accepts; rw [hA]; rfl
          exact not_lt.1 fun h => c ⟨h, this⟩
      · exact h2

lemma checkJ_total {o : NewtonOpts K} (ho : AllTotal o) (x : List K) (j : List (List K)) : ∃ J, checkJ o x j = .ok J := by
  unfold checkJ
  split_ifs
  · exact ho.2.2.1 x
  · exact ⟨_, rfl⟩
  · exact ⟨_, rfl⟩

lemma newtonLoop_total {o : NewtonOpts K} (ho : AllTotal o) (hA : o.Armijo = false) (hp : o.require_progress = false) (hf : o.factors ≠ []) (fuel : ℕ) :
    ∀ s : NewtonSt K, ∃ r, newtonLoop o fuel s = .ok r := by
  induction fuel with
  | zero => intro s; exact ⟨s, rfl⟩
  | succ fuel ih =>
    intro s
    rw [newtonLoop]
    by_cases c : s.iteration < o.maxiter
    · rw [if_pos c]
      obtain ⟨dx, hdx⟩ := ho.2.2.2.1 s.j (s.fcur.map (- ·))
      have e : newtonStep o s.x s.fcur s.j = .ok (dx, s.j) := by unfold newtonStep; rw [hdx]
      rw [e, Py.ok_bind]
      obtain ⟨t, ht, ⟨h0, -⟩ | ⟨y, F, er, h1, h2, h3, h4, h5⟩⟩ := lineSearch_total ho hA (x := s.x) (dx := dx) (fcur := s.fcur) (j := s.j) (err0 := s.err0) o.factors s.t
      · exact absurd h0 hf
      rw [ht, Py.ok_bind]
      have tk : ∃ s', takeTrial o s s.j t = .ok s' ∧ (s'.t.jac_updated = true → ∃ J, s'.t.jnew = some J) := by
        unfold takeTrial
        rw [h1, h2, h3]
        dsimp only
        rw [if_neg (by rw [hp]; simp)]
        by_cases c2 : er ≥ s.err0
        · rw [if_pos c2, if_neg (by rw [hp]; simp)]
          by_cases ja : o.jac_also = true
          · rw [if_pos ja]
            exact ⟨_, rfl, fun _ => h4 ja⟩
          · rw [if_neg ja]
            obtain ⟨J, hJ⟩ := ho.2.1 y
            rw [hJ, Py.ok_bind]
            exact ⟨_, rfl, fun _ => ⟨J, rfl⟩⟩
        · rw [if_neg c2]
          refine ⟨_, rfl, fun hu => ?_⟩
          by_cases ja : o.jac_also = true
          · exact h4 ja
          · rcases h5 (by simpa using ja) with h | h
            · rw [h] at hu; cases hu
            · exact absurd h c2
      obtain ⟨s', hs', hj⟩ := tk
      rw [hs', Py.ok_bind]
      by_cases cv : converged o s'.fcur = true
      · rw [if_pos cv]; exact ⟨_, rfl⟩
      · rw [if_neg cv]
        have nj : ∃ s'', nextJ o s' = .ok s'' := by
          unfold nextJ
          by_cases hu : s'.t.jac_updated = true
          · obtain ⟨J, hJ⟩ := hj hu
            obtain ⟨J', hJ'⟩ := checkJ_total ho s'.x J
            rw [if_pos hu, hJ]
            dsimp only
            rw [Py.ok_bind, hJ', Py.ok_bind]
            exact ⟨_, rfl⟩
          · obtain ⟨J, hJ⟩ := ho.2.1 s'.x
            obtain ⟨J', hJ'⟩ := checkJ_total ho s'.x J
            rw [if_neg hu, hJ, Py.ok_bind, hJ', Py.ok_bind]
            exact ⟨_, rfl⟩
        obtain ⟨s'', hs''⟩ := nj
        rw [hs'', Py.ok_bind]
        exact ih s''
    · rw [if_neg c]; exact ⟨_, rfl⟩

/-- C120: when no callable raises, and neither `require_progress` nor the Armijo rule is asked for, `newton_system` returns or raises `UnconvergedError`, nothing else, and never raises without
tolerances. -/
theorem C120_newton_errors {o : NewtonOpts K} (ho : AllTotal o) (hA : o.Armijo = false) (hp : o.require_progress = false) (hf : o.factors ≠ []) (x0 : List K) :
    (∃ r, newton_system o x0 = .ok r) ∨ (newton_system o x0 = .error .unconvergedError ∧ ¬(o.xtol = none ∧ o.ytol = none)) := by
  obtain ⟨FJ, hFJ⟩ := evalBoth_total (o := o) ⟨ho.1, fun _ => ho.2.1⟩ x0
  unfold newton_system
  rw [hFJ, Py.ok_bind]
  by_cases c : o.xtol = none ∧ ∃ yt ∈ o.ytol, absSum FJ.1 < yt
  · rw [if_pos c]; exact .inl ⟨_, rfl⟩
  · rw [if_neg c]
    have h1 : ∃ j, startJ o x0 FJ.2 = .ok j := by
      match FJ.2 with
      | some J => exact ⟨J, rfl⟩
      | none => exact ho.2.1 x0
    obtain ⟨j, hj⟩ := h1
    obtain ⟨j', hj'⟩ := checkJ_total ho x0 j
    obtain ⟨s, hs⟩ := newtonLoop_total ho hA hp hf o.maxiter ⟨x0, FJ.1, j', absSum FJ.1, 1, ⟨none, none, none, none, true⟩⟩
    rw [hj, Py.ok_bind, hj', Py.ok_bind, hs, Py.ok_bind]
    by_cases c1 : ∃ xt ∈ o.xtol, o.norm2 s.fcur > xt
    · rw [if_pos c1]
      obtain ⟨xt, hx, -⟩ := c1
      exact .inr ⟨rfl, fun h => by rw [h.1] at hx; cases hx⟩
    rw [if_neg c1]
    by_cases c2 : ∃ yt ∈ o.ytol, absSum s.fcur > yt
    · rw [if_pos c2]
      obtain ⟨yt, hy, -⟩ := c2
      exact .inr ⟨rfl, fun h => by rw [h.2] at hy; cases hy⟩
    rw [if_neg c2]
    exact .inl ⟨_, rfl⟩

/-! #### one step -/

/-- C120: if the full Newton step from the start lands on a solution, `newton_system` returns that point after one step, whatever the line search, whenever a step is allowed and the start does not
already meet the tolerances. In particular this holds for every linear system. -/
theorem C120_newton_exact [IsStrictOrderedRing K] {o : NewtonOpts K} {x0 F0 dx Z : List K} {J : List (List K)} {rest : List K} (hja : o.jac_also = false) (hc : o.check_numbers = false)
    (hd : o.damping = 1) (hdf : o.damping_func = none) (hA : o.Armijo = false) (hfs : o.factors = 1 :: rest) (hm : 2 ≤ o.maxiter) (hF : o.f x0 = .ok F0) (hJ : o.jac x0 = .ok J)
    (hdx : o.solve_func J (F0.map (- ·)) = .ok dx) (hZ : o.f (List.zipWith (· + ·) x0 dx) = .ok Z) (hZ1 : l1 Z = 0) (hZ2 : o.norm2 Z = 0) (hF1 : 0 < l1 F0) (hx : ∀ xt ∈ o.xtol, 0 < xt)
    (hy : ∀ yt ∈ o.ytol, 0 < yt) (hsome : ¬(o.xtol = none ∧ o.ytol = none)) (hnot : o.xtol = none → ∀ yt ∈ o.ytol, yt ≤ l1 F0) :
    newton_system o x0 = .ok (.done (List.zipWith (· + ·) x0 dx) 2 Z J) := by
  have e0 : evalBoth o x0 = .ok (F0, none) := by unfold evalBoth; rw [hF, Py.ok_bind, hja]; rfl
  have e1 : ∀ y G, o.f y = .ok G → evalBoth o y = .ok (G, none) := by intro y G h; unfold evalBoth; rw [h, Py.ok_bind, hja]; rfl
  have pt : tryPoint o x0 dx 1 = .ok (List.zipWith (· + ·) x0 dx) := by
    unfold tryPoint
    rw [hdf, hd]
    simp only [mul_one]
  have ls : lineSearch o x0 dx F0 J (absSum F0) o.factors ⟨none, none, none, none, true⟩ = .ok ⟨some (List.zipWith (· + ·) x0 dx), some Z, none, some (absSum Z), false⟩ := by
    rw [hfs, lineSearch, pt, Py.ok_bind, e1 _ _ hZ]
    dsimp only
    rw [if_pos ⟨by rw [absSum_l1, absSum_l1, hZ1]; exact hF1, by unfold accepts; rw [hA]; rfl⟩, hja]
    rfl
  have tk : takeTrial o ⟨x0, F0, J, absSum F0, 1, ⟨none, none, none, none, true⟩⟩ J ⟨some (List.zipWith (· + ·) x0 dx), some Z, none, some (absSum Z), false⟩ =
      .ok ⟨List.zipWith (· + ·) x0 dx, Z, J, absSum Z, 2, ⟨some (List.zipWith (· + ·) x0 dx), some Z, none, some (absSum Z), false⟩⟩ := by
    unfold takeTrial
    dsimp only
    rw [if_neg (by rw [absSum_l1, absSum_l1, hZ1]; intro h; exact absurd h.2.1 (not_lt.2 hF1.le)), if_neg (by rw [absSum_l1, absSum_l1, hZ1]; exact not_le.2 hF1)]
  have cv : converged o Z = true := by
    unfold converged
    match h1 : o.xtol, h2 : o.ytol with
    | some xt, none => have := hx xt h1; simp [hZ2, this]
    | some xt, some yt => have := hx xt h1; have := hy yt h2; simp [hZ2, absSum_l1, hZ1, *]
    | none, some yt => have := hy yt h2; simp [absSum_l1, hZ1, this]
    | none, none => exact absurd ⟨h1, h2⟩ hsome
  have lp : newtonLoop o o.maxiter ⟨x0, F0, J, absSum F0, 1, ⟨none, none, none, none, true⟩⟩ =
      .ok ⟨List.zipWith (· + ·) x0 dx, Z, J, absSum Z, 2, ⟨some (List.zipWith (· + ·) x0 dx), some Z, none, some (absSum Z), false⟩⟩ := by
    obtain ⟨n, hn⟩ : ∃ n, o.maxiter = n + 1 := ⟨o.maxiter - 1, by omega⟩
    conv_lhs => rw [hn, newtonLoop]
    rw [if_pos (show 1 < o.maxiter by omega)]
    have st : newtonStep o x0 F0 J = .ok (dx, J) := by unfold newtonStep; rw [hdx]
    dsimp only
    rw [st, Py.ok_bind, ls, Py.ok_bind, tk, Py.ok_bind, if_pos cv]
  unfold newton_system
  rw [e0, Py.ok_bind, if_neg (by rintro ⟨h, yt, hyt, hlt⟩; rw [absSum_l1] at hlt; exact absurd hlt (not_lt.2 (hnot h yt hyt)))]
  have ck : checkJ o x0 J = .ok J := by unfold checkJ; rw [hc]; rfl
  dsimp only
  rw [startJ, hJ, Py.ok_bind, ck, Py.ok_bind, lp, Py.ok_bind]
  dsimp only
  rw [if_neg (by rintro ⟨xt, hxt, hlt⟩; rw [hZ2] at hlt; exact absurd hlt (not_lt.2 (hx xt hxt).le)), if_neg (by rintro ⟨yt, hyt, hlt⟩; rw [absSum_l1, hZ1] at hlt; exact absurd hlt (not_lt.2 (hy yt hyt).le))]

/-- the linear solver of one equation -/
def solve1 (j : List (List ℚ)) (v : List ℚ) : Py (List ℚ) :=
  match j, v with
  | [[a]], [b] => do return [← pdiv b a]
  | _, _ => .error .valueError

/-- `f(x) = x`, raising for x < 1 -/
def fGuard : List ℚ → Py (List ℚ)
  | [x] => if x < 1 then .error .valueError else .ok [x]
  | _ => .error .typeError

/-- options for one equation: ytol only -/
def opts1 (f : List ℚ → Py (List ℚ)) (ytol damping : ℚ) (maxiter : ℕ) : NewtonOpts ℚ :=
  ⟨fun F => absSum F, f, fun _ => .ok [[1]], false, fun _ => .ok [[1]], solve1, none, none, some ytol, maxiter, damping, [1], false, false, false, false, 0, false⟩

/-- whether a result is the full one with these values -/
def isDone (r : Py (NewtonRes ℚ)) (x : List ℚ) (n : ℕ) (F : List ℚ) (J : List (List ℚ)) : Bool :=
  match r with
  | .ok (.done x' n' F' J') => decide (x' = x) && decide (n' = n) && decide (F' = F) && decide (J' = J)
  | _ => false

lemma isDone_eq {r : Py (NewtonRes ℚ)} {x n F J} (h : isDone r x n F J = true) : r = .ok (.done x n F J) := by
  unfold isDone at h
  match r, h with
  | .ok (.done x' n' F' J'), h =>
    simp only [Bool.and_eq_true, decide_eq_true_eq] at h
    obtain ⟨⟨⟨rfl, rfl⟩, rfl⟩, rfl⟩ := h
    rfl

/-- C120 (finding): the objective's exceptions are swallowed and the residuals of the last good point stay in place, so a point at which the objective raises can be returned: here
f(x) = x raises below 1, the returned point is 1/2. -/
theorem C120_newton_stale : ∃ x n F J, newton_system (opts1 fGuard 1 (1/2) 3) [2] = .ok (.done x n F J) ∧ fGuard x = .error .valueError ∧ F = [1] := by
  refine ⟨[1/2], 3, [1], [[1]], isDone_eq (by decide +kernel), ?_, rfl⟩
  norm_num [fGuard]

/-! ### newton_minimize -/

/-- C120: a point returned by `newton_minimize` has a gradient that meets every tolerance asked for, after at most `maxiter` steps. -/
theorem C120_minimize {norm2 : List K → K} {fjh : List K → Py (List K × List (List K))} {solve : List (List K) → List K → Py (List K)} {step : List K → List K → Py (List K)} {xtol ytol : Option K}
    {maxiter : ℕ} {x0 x : List K} {n : ℕ} (h : newton_minimize norm2 fjh solve step xtol ytol maxiter x0 = .ok (x, n)) :
    n ≤ maxiter ∧ ∃ j H, fjh x = .ok (j, H) ∧ Meets norm2 xtol ytol j := by
  have loop : ∀ fuel x j H it r, fjh x = .ok (j, H) → it ≤ maxiter → minimizeLoop norm2 fjh solve step xtol ytol maxiter fuel x j H it = .ok r →
      r.2.2 ≤ maxiter ∧ ∃ H, fjh r.1 = .ok (r.2.1, H) := by
    intro fuel
    induction fuel with
    | zero => intro x j H it r hx hit h; obtain rfl := Except.ok.inj h; exact ⟨hit, H, hx⟩
    | succ fuel ih =>
      intro x j H it r hx hit h
      rw [minimizeLoop] at h
      by_cases c : it < maxiter
      · rw [if_pos c] at h
        obtain ⟨dx, -, h⟩ := Py.bind_eq_ok.1 h
        obtain ⟨x', -, h⟩ := Py.bind_eq_ok.1 h
        obtain ⟨g, hg, h⟩ := Py.bind_eq_ok.1 h
        by_cases c2 : (∃ xt ∈ xtol, norm2 g.1 < xt) ∨ (∃ yt ∈ ytol, absSum g.1 < yt)
        · rw [if_pos c2] at h
          obtain rfl := Except.ok.inj h
          exact ⟨c, g.2, hg⟩
        · rw [if_neg c2] at h
          exact ih x' g.1 g.2 (it + 1) r hg c h
      · rw [if_neg c] at h
        obtain rfl := Except.ok.inj h
        exact ⟨hit, H, hx⟩
  unfold newton_minimize at h
  obtain ⟨r, hr, h⟩ := Py.bind_eq_ok.1 h
  obtain ⟨s, hs, h⟩ := Py.bind_eq_ok.1 h
  obtain ⟨a, H, b⟩ := loop _ _ _ _ _ _ hr (Nat.zero_le _) hs
  by_cases c1 : ∃ xt ∈ xtol, norm2 s.2.1 > xt
  · rw [if_pos c1] at h; cases h
  rw [if_neg c1] at h
  by_cases c2 : ∃ yt ∈ ytol, absSum s.2.1 > yt
  · rw [if_pos c2] at h; cases h
  rw [if_neg c2] at h
  have h := Except.ok.inj h
  obtain ⟨rfl, rfl⟩ := Prod.mk.inj h
  refine ⟨a, s.2.1, H, b, fun xt hx => ?_, fun yt hy => ?_⟩
  · by_contra hh; exact c1 ⟨xt, hx, not_le.1 hh⟩
  · by_contra hh; exact c2 ⟨yt, hy, by rw [absSum_l1]; exact not_le.1 hh⟩

/-! ### homotopy_solver -/

/-- C120: whatever `homotopy_solver` returns was accepted by the last Newton solve: λ is within `eps` of one and the residuals f(x) − (1 − λ) f(x₀) meet the terminal tolerances (they are the residuals
of the system itself when λ is one), for an objective that never raises. -/
theorem C120_homotopy_sound [IsStrictOrderedRing K] {o : NewtonOpts K} {x0 f0 : List K} {step : K} {txt tyt : Option K} {criteria eps : K} {fuel : ℕ} {r : HomSt K} (heps : eps < 1)
    (hcr : criteria ≤ 1 - eps) (hja : o.jac_also = false) (hf0 : o.f x0 = .ok f0) (htot : ∀ y, ∃ G, o.f y = .ok G ∧ G.length = f0.length)
    (h : homotopy_solver o x0 step txt tyt criteria eps fuel = some (.ok r)) :
    |r.lambd - 1| ≤ eps ∧ ∃ F, o.f r.x0 = .ok F ∧ Meets o.norm2 txt tyt (List.zipWith (fun a b => a - (1 - r.lambd) * b) F f0) ∧ (r.lambd = 1 → Meets o.norm2 txt tyt F) := by
  have zip1 : ∀ F : List K, F.length = f0.length → List.zipWith (fun a b => a - (1 - 1) * b) F f0 = F := by
    intro F hl
    apply List.ext_getElem
    · simp [hl]
    · intro i h1 h2; simp
  have loop : ∀ fuel (s : HomSt K), s.lambd ≤ 1 → (|s.lambd - 1| ≤ eps → ∃ F, o.f s.x0 = .ok F ∧ F.length = f0.length ∧ Meets o.norm2 txt tyt (List.zipWith (fun a b => a - (1 - s.lambd) * b) F f0)) →
      homotopyLoop (homNewton o f0) o.solve_func f0 o.xtol o.ytol txt tyt criteria eps fuel s = some (.ok r) →
      |r.lambd - 1| ≤ eps ∧ ∃ F, o.f r.x0 = .ok F ∧ F.length = f0.length ∧ Meets o.norm2 txt tyt (List.zipWith (fun a b => a - (1 - r.lambd) * b) F f0) := by
    intro fuel
    induction fuel with
    | zero =>
      intro s h1 hs h
      rw [homotopyLoop] at h
      by_cases c : |s.lambd - 1| > eps
      · rw [if_pos c] at h; cases h
      · rw [if_neg c] at h
        obtain rfl := Except.ok.inj (Option.some.inj h)
        exact ⟨not_lt.1 c, hs (not_lt.1 c)⟩
    | succ fuel ih =>
      intro s h1 hs h
      rw [homotopyLoop] at h
      by_cases c : |s.lambd - 1| > eps
      · rw [if_pos c] at h
        dsimp only at h
        have hlam : (if s.lambd + s.step > 1 then (1 : K) else s.lambd + s.step) ≤ 1 ∧
            ((if s.lambd + s.step > 1 then (1 : K) else s.lambd + s.step) = s.lambd + s.step ∨ ((if s.lambd + s.step > 1 then (1 : K) else s.lambd + s.step) = 1 ∧ 1 < s.lambd + s.step)) := by
          split_ifs with c
          · exact ⟨le_rfl, .inr ⟨rfl, c⟩⟩
          · exact ⟨not_lt.1 c, .inl rfl⟩
        generalize (if s.lambd + s.step > 1 then (1 : K) else s.lambd + s.step) = lam at h hlam
        have hlt : s.lambd < 1 - eps := by
          rw [abs_of_nonpos (by linarith)] at c
          linarith
        have fail : lam - s.step ≤ 1 ∧ ¬|lam - s.step - 1| ≤ eps := by
          rcases hlam.2 with e | ⟨e, e'⟩
          · rw [e, add_sub_cancel_right]
            exact ⟨h1, not_le.2 c⟩
          · rw [e]
            refine ⟨by linarith, fun hh => ?_⟩
            have := neg_le_of_abs_le hh
            linarith
        by_cases c0 : s.step = 0
        · rw [if_pos c0] at h; cases h
        rw [if_neg c0] at h
        match hp : predict o.solve_func f0 s lam, h with
        | .ok x1, h =>
          dsimp only at h
          match hn : homNewton o f0 lam (if lam < criteria then o.xtol else txt) (if lam < criteria then o.ytol else tyt) s.remaining x1, h with
          | .ok (.done x2 niter Fx J), h =>
            refine ih _ hlam.1 ?_ h
            intro hl
            dsimp only at hl ⊢
            have hlc : ¬lam < criteria := by
              intro hlt
              have := neg_le_of_abs_le hl
              linarith
            rw [if_neg hlc, if_neg hlc] at hn
            obtain ⟨m1, -, -, m4, -⟩ := C120_newton_sound.2 _ _ _ _ hn
            have tot : Total { o with f := homotopy_function o.f f0 lam, xtol := txt, ytol := tyt, maxiter := s.remaining.toNat } := by
              refine ⟨fun y => ?_, fun h => by dsimp only at h; rw [hja] at h; cases h⟩
              obtain ⟨G, hG, hl⟩ := htot y
              dsimp only
              unfold homotopy_function
              rw [hG, Py.ok_bind, if_pos (by omega)]
              exact ⟨_, rfl⟩
            have m4 := m4 tot
            dsimp only at m4 m1
            unfold homotopy_function at m4
            obtain ⟨F, hF, m4⟩ := Py.bind_eq_ok.1 m4
            obtain ⟨G, hG, hGl⟩ := htot x2
            obtain rfl : F = G := Except.ok.inj (hF.symm.trans hG)
            rw [if_pos (by omega)] at m4
            obtain rfl := Except.ok.inj m4
            exact ⟨F, hF, hGl, m1⟩
          | .ok (.early _), h =>
            dsimp only at h
            by_cases c5 : s.failed + 1 > 5
            · rw [if_pos c5] at h; cases h
            rw [if_neg c5] at h
            exact ih _ fail.1 (fun hh => absurd hh fail.2) h
          | .error _, h =>
            dsimp only at h
            by_cases c5 : s.failed + 1 > 5
            · rw [if_pos c5] at h; cases h
            rw [if_neg c5] at h
            exact ih _ fail.1 (fun hh => absurd hh fail.2) h
        | .error e, h => cases h
      · rw [if_neg c] at h
        obtain rfl := Except.ok.inj (Option.some.inj h)
        exact ⟨not_lt.1 c, hs (not_lt.1 c)⟩
  unfold homotopy_solver at h
  rw [hf0] at h
  match hj : o.jac x0, h with
  | .ok J, h =>
    obtain ⟨a, F, b, c, d⟩ := loop fuel ⟨x0, f0, J, 0, 0, step, o.maxiter, 0⟩ zero_le_one (fun hh => by
      dsimp only at hh
      rw [zero_sub, abs_neg, abs_one] at hh
      exact absurd hh (not_le.2 heps)) h
    refine ⟨a, F, b, d, fun e => ?_⟩
    rw [e] at d
    rw [zip1 F c] at d
    exact d
  | .error e, h => cases h

lemma homotopy_terminates [IsStrictOrderedRing K] [Archimedean K] (newton : K → Option K → Option K → ℤ → List K → Py (NewtonRes K)) (solve_func : List (List K) → List K → Py (List K)) (f0 : List K)
    (xtol ytol txt tyt : Option K) (criteria eps : K) (heps : 0 ≤ eps) (m : ℕ) :
    ∀ s : HomSt K, 0 < s.step → s.lambd ≤ 1 → 5 ≤ s.failed + m → ∃ fuel, homotopyLoop newton solve_func f0 xtol ytol txt tyt criteria eps fuel s ≠ none := by
  induction m with
  | zero =>
    intro s hs h1 hf
    have key : ∀ (n : ℕ) (s : HomSt K), 0 < s.step → s.lambd ≤ 1 → 5 ≤ s.failed → 1 - s.lambd ≤ n * s.step → ∃ fuel, homotopyLoop newton solve_func f0 xtol ytol txt tyt criteria eps fuel s ≠ none := by
      intro n
      induction n with
      | zero =>
        intro s hs h1 hf hn
        refine ⟨0, ?_⟩
        rw [homotopyLoop, if_neg]
        · simp
        · have : s.lambd = 1 := by simp at hn; linarith
          rw [this]; simpa using heps
      | succ n ihn =>
        intro s hs h1 hf hn
        by_cases c : |s.lambd - 1| > eps
        swap
        · exact ⟨0, by rw [homotopyLoop, if_neg c]; simp⟩
        obtain ⟨lam, hlam⟩ : ∃ lam, lam = (if s.lambd + s.step > 1 then (1 : K) else s.lambd + s.step) := ⟨_, rfl⟩
        have hl1 : lam ≤ 1 ∧ 1 - lam ≤ n * s.step := by
          rw [hlam]
          split_ifs with c2
          · exact ⟨le_rfl, by rw [sub_self]; positivity⟩
          · push_cast at hn
            exact ⟨not_lt.1 c2, by linarith⟩
        match hp : predict solve_func f0 s lam with
        | .error e => exact ⟨1, by rw [homotopyLoop, if_pos c, if_neg hs.ne']; dsimp only; rw [← hlam, hp]; simp⟩
        | .ok x1 =>
          match hn' : newton lam (if lam < criteria then xtol else txt) (if lam < criteria then ytol else tyt) s.remaining x1 with
          | .ok (.done x2 niter Fx J) =>
            obtain ⟨fuel, hfu⟩ := ihn { s with x0 := x2, Fx := Fx, J := J, lambd := lam, lambd_previous := lam, remaining := s.remaining - niter } hs hl1.1 hf hl1.2
            refine ⟨fuel + 1, ?_⟩
            rw [homotopyLoop, if_pos c, if_neg hs.ne']
            dsimp only
            rw [← hlam, hp]
            dsimp only
            rw [hn']
            exact hfu
          | .ok (.early _) => exact ⟨1, by rw [homotopyLoop, if_pos c, if_neg hs.ne']; dsimp only; rw [← hlam, hp]; dsimp only; rw [hn']; dsimp only; rw [if_pos (by omega)]; simp⟩
          | .error _ => exact ⟨1, by rw [homotopyLoop, if_pos c, if_neg hs.ne']; dsimp only; rw [← hlam, hp]; dsimp only; rw [hn']; dsimp only; rw [if_pos (by omega)]; simp⟩
    obtain ⟨n, hn⟩ := Archimedean.arch (1 - s.lambd) hs
    exact key n s hs h1 (by omega) (by rwa [nsmul_eq_mul] at hn)
  | succ m ihm =>
    intro s hs h1 hf
    have key : ∀ (n : ℕ) (s : HomSt K), 0 < s.step → s.lambd ≤ 1 → 5 ≤ s.failed + (m + 1) → 1 - s.lambd ≤ n * s.step →
        ∃ fuel, homotopyLoop newton solve_func f0 xtol ytol txt tyt criteria eps fuel s ≠ none := by
      intro n
      induction n with
      | zero =>
        intro s hs h1 hf hn
        refine ⟨0, ?_⟩
        rw [homotopyLoop, if_neg]
        · simp
        · have : s.lambd = 1 := by simp at hn; linarith
          rw [this]; simpa using heps
      | succ n ihn =>
        intro s hs h1 hf hn
        by_cases c : |s.lambd - 1| > eps
        swap
        · exact ⟨0, by rw [homotopyLoop, if_neg c]; simp⟩
        obtain ⟨lam, hlam⟩ : ∃ lam, lam = (if s.lambd + s.step > 1 then (1 : K) else s.lambd + s.step) := ⟨_, rfl⟩
        have hl1 : lam ≤ 1 ∧ 1 - lam ≤ n * s.step := by
          rw [hlam]
          split_ifs with c2
          · exact ⟨le_rfl, by rw [sub_self]; positivity⟩
          · push_cast at hn
            exact ⟨not_lt.1 c2, by linarith⟩
        match hp : predict solve_func f0 s lam with
        | .error e => exact ⟨1, by rw [homotopyLoop, if_pos c, if_neg hs.ne']; dsimp only; rw [← hlam, hp]; simp⟩
        | .ok x1 =>
          have fl : ∃ fuel, homotopyLoop newton solve_func f0 xtol ytol txt tyt criteria eps fuel { s with lambd := lam - s.step, step := s.step / 2, failed := s.failed + 1 } ≠ none :=
            ihm _ (by simpa using hs) (by dsimp only; linarith [hl1.1]) (by dsimp only; omega)
          match hn' : newton lam (if lam < criteria then xtol else txt) (if lam < criteria then ytol else tyt) s.remaining x1 with
          | .ok (.done x2 niter Fx J) =>
            obtain ⟨fuel, hfu⟩ := ihn { s with x0 := x2, Fx := Fx, J := J, lambd := lam, lambd_previous := lam, remaining := s.remaining - niter } hs hl1.1 hf hl1.2
            refine ⟨fuel + 1, ?_⟩
            rw [homotopyLoop, if_pos c, if_neg hs.ne']
            dsimp only
            rw [← hlam, hp]
            dsimp only
            rw [hn']
            exact hfu
          | .ok (.early _) =>
            obtain ⟨fuel, hfu⟩ := fl
            refine ⟨fuel + 1, ?_⟩
            rw [homotopyLoop, if_pos c, if_neg hs.ne']
            dsimp only
            rw [← hlam, hp]
            dsimp only
            rw [hn']
            dsimp only
            split_ifs
            · simp
            · exact hfu
          | .error _ =>
            obtain ⟨fuel, hfu⟩ := fl
            refine ⟨fuel + 1, ?_⟩
            rw [homotopyLoop, if_pos c, if_neg hs.ne']
            dsimp only
            rw [← hlam, hp]
            dsimp only
            rw [hn']
            dsimp only
            split_ifs
            · simp
            · exact hfu
    obtain ⟨n, hn⟩ := Archimedean.arch (1 - s.lambd) hs
    exact key n s hs h1 hf (by rwa [nsmul_eq_mul] at hn)

/-- C120: with a positive λ step `homotopy_solver` always ends, whatever the callables do: at most five halvings of the step are tolerated and every success raises λ. -/
theorem C120_homotopy_terminates [IsStrictOrderedRing K] [Archimedean K] {o : NewtonOpts K} {x0 : List K} {step : K} {txt tyt : Option K} {criteria eps : K} (heps : 0 ≤ eps) (hs : 0 < step) :
    ∃ fuel r, homotopy_solver o x0 step txt tyt criteria eps fuel = some r := by
  unfold homotopy_solver
  match o.f x0, o.jac x0 with
  | .ok f0, .ok J =>
    obtain ⟨fuel, hfu⟩ := homotopy_terminates (homNewton o f0) o.solve_func f0 o.xtol o.ytol txt tyt criteria eps heps 5 ⟨x0, f0, J, 0, 0, step, o.maxiter, 0⟩ hs zero_le_one (by simp)
    exact ⟨fuel, Option.ne_none_iff_exists'.1 hfu⟩
  | .error e, _ => exact ⟨0, _, rfl⟩
  | .ok _, .error e => exact ⟨0, _, rfl⟩

/-- `f(x) = x − 1` -/
def fLin : List ℚ → Py (List ℚ)
  | [x] => .ok [x - 1]
  | _ => .error .typeError

/-- whether a result is this error -/
def isErr {α : Type} (r : Option (Py α)) (e : PyErr) : Bool :=
  match r with
  | some (.error e') => decide (e' = e)
  | _ => false

/-- C120 (finding): with a residual tolerance only, the prediction that already meets it makes `newton_system` return two values where `homotopy_solver` unpacks four, which counts as a failed step: the
linear equation x − 1 = 0 ends in `UnconvergedError`. -/
theorem C120_homotopy_early_exit : ∃ fuel, homotopy_solver (opts1 fLin (1/10^9) 1 100) [0] (1/10) none (some (1/10^9)) (9/10) (1/10^15) fuel = some (.error .unconvergedError) := by
  refine ⟨10, ?_⟩
  have key : isErr (homotopy_solver (opts1 fLin (1/10^9) 1 100) [0] (1/10) none (some (1/10^9)) (9/10) (1/10^15) 10) .unconvergedError = true := by decide +kernel
  revert key
  generalize homotopy_solver (opts1 fLin (1/10^9) 1 100) [0] (1/10) none (some (1/10^9)) (9/10) (1/10^15) 10 = r
  intro key
  unfold isErr at key
  match r, key with
  | some (.error e), key => rw [decide_eq_true_eq] at key; rw [key]

/-! ### broyden2 -/

/-- C120: `broyden2` returns a point after at most `maxiter` steps, whose residuals are below the tolerance unless all steps were used — in which case nothing is raised. The stored inverse Jacobian is
always a multiple of the one at the start, so the method never learns a direction. -/
theorem C120_broyden {f : List K → Py (List K)} {mv : List (List K) → List K → List K} {dot : List K → List K → K} {xtol : K} {maxiter : ℕ} {J : List (List K)} {xs x : List K} {n : ℕ}
    (h : broyden2 f mv dot xtol maxiter J xs = .ok (x, n)) :
    (∃ F, f x = .ok F ∧ n ≤ maxiter ∧ (l1 F ≤ xtol ∨ n = maxiter)) ∧
    ∃ F0 c J', f xs = .ok F0 ∧ broydenLoop f mv dot xtol maxiter maxiter xs F0 J 0 = .ok (x, n, J') ∧ J' = J.map fun row => row.map fun v => c * v := by
  have loop : ∀ fuel xs F J' it r (c : K), f xs = .ok F → it ≤ maxiter → maxiter ≤ fuel + it → (J' = J.map fun row => row.map fun v => c * v) → broydenLoop f mv dot xtol maxiter fuel xs F J' it = .ok r →
      (∃ F, f r.1 = .ok F ∧ r.2.1 ≤ maxiter ∧ (l1 F ≤ xtol ∨ r.2.1 = maxiter)) ∧ ∃ c : K, r.2.2 = J.map fun row => row.map fun v => c * v := by
    intro fuel
    induction fuel with
    | zero =>
      intro xs F J' it r c hf hit hfu hJ h
      obtain rfl := Except.ok.inj h
      exact ⟨⟨F, hf, hit, .inr (by dsimp only; omega)⟩, c, hJ⟩
    | succ fuel ih =>
      intro xs F J' it r c hf hit hfu hJ h
      rw [broydenLoop] at h
      by_cases cc : absSum F > xtol ∧ it < maxiter
      · rw [if_pos cc] at h
        dsimp only at h
        obtain ⟨fnew, hfn, h⟩ := Py.bind_eq_ok.1 h
        obtain ⟨den, -, h⟩ := Py.bind_eq_ok.1 h
        generalize den * dot _ _ = factor at h
        refine ih _ _ _ _ _ (c + factor * c) hfn cc.2 (by omega) ?_ h
        rw [hJ, List.map_map]
        congr 1
        funext row
        simp only [Function.comp_apply, List.map_map]
        congr 1
        funext v
        simp only [Function.comp_apply]
        ring
      · rw [if_neg cc] at h
        obtain rfl := Except.ok.inj h
        refine ⟨⟨F, hf, hit, ?_⟩, c, hJ⟩
        rw [not_and_or, not_lt, not_lt, absSum_l1] at cc
        rcases cc with a | a
        · exact .inl a
        · exact .inr (le_antisymm hit a)
  unfold broyden2 at h
  obtain ⟨F0, hF0, h⟩ := Py.bind_eq_ok.1 h
  obtain ⟨r, hr, h⟩ := Py.bind_eq_ok.1 h
  obtain ⟨rfl, rfl⟩ := Prod.mk.inj (Except.ok.inj h)
  obtain ⟨a, c, b⟩ := loop maxiter xs F0 J 0 r 1 hF0 (Nat.zero_le _) (by omega) (by simp) hr
  exact ⟨a, F0, c, r.2.2, hF0, hr, b⟩

/-- `f(x) = x³` -/
def fCube : List ℚ → Py (List ℚ)
  | [x] => .ok [x ^ 3]
  | _ => .error .typeError

def mv1 (J : List (List ℚ)) (v : List ℚ) : List ℚ := J.map fun row => (List.zipWith (· * ·) row v).sum
def dot1 (a b : List ℚ) : ℚ := (List.zipWith (· * ·) a b).sum

/-- whether a result is this pair -/
def isPair (r : Py (List ℚ × ℕ)) (x : List ℚ) (n : ℕ) : Bool :=
  match r with
  | .ok (x', n') => decide (x' = x) && decide (n' = n)
  | _ => false

/-- C120 (finding): a `broyden2` run that has not converged returns like one that has: one step on x³ = 0 from 1 returns 2/3. -/
theorem C120_broyden_silent : broyden2 fCube mv1 dot1 (1/10^7) 1 [[1/3]] [1] = .ok ([2/3], 1) := by
  have key : isPair (broyden2 fCube mv1 dot1 (1/10^7) 1 [[1/3]] [1]) [2/3] 1 = true := by decide +kernel
  revert key
  generalize broyden2 fCube mv1 dot1 (1/10^7) 1 [[1/3]] [1] = r
  intro key
  unfold isPair at key
  match r, key with
  | .ok (x, n), key =>
    simp only [Bool.and_eq_true, decide_eq_true_eq] at key
    rw [key.1, key.2]

example : newton_system (opts1 fLin (1/10^9) 1 100) [5] = .ok (.done [1] 2 [0] [[1]]) := isDone_eq (by decide +kernel)

/-- C120: with the Armijo test switched on, a trial point ends the line search exactly when the sum of squares is at most that of the current point plus `c₁` times the step factor times
`4‖JᵀF‖²` (finding: the last term is added, so the test is weaker than no increase at all, where Armijo's rule demands a decrease). -/
theorem C120_armijo {o : NewtonOpts K} (hA : o.Armijo = true) (fcur fnew : List K) (j : List (List K)) (factor : K) :
    accepts o fcur j factor fnew = true ↔
      (fnew.map fun v => v ^ 2).sum ≤ (fcur.map fun v => v ^ 2).sum +
        o.Armijo_c1 * factor * (4 * ∑ i ∈ Finset.range fcur.length, (∑ k ∈ Finset.range fcur.length, fcur.getD k 0 * (j.getD k []).getD i 0) ^ 2) := by
  have f1 : ∀ (l : List K) (a : K), l.foldl (fun e v => e + v * v) a = a + (l.map fun v => v ^ 2).sum := by
    intro l
    induction l with
    | nil => simp
    | cons x l ih => intro a; rw [List.foldl_cons, ih, List.map_cons, List.sum_cons]; ring
  have f2 : ∀ (g : ℕ → K) (n : ℕ), (List.range n).foldl (fun t i => t + g i) 0 = ∑ i ∈ Finset.range n, g i := by
    intro g n
    induction n with
    | zero => simp
    | succ n ih => rw [List.range_succ, List.foldl_append, ih, Finset.sum_range_succ]; rfl
  have hd : derphi fcur j = 4 * ∑ i ∈ Finset.range fcur.length, (∑ k ∈ Finset.range fcur.length, fcur.getD k 0 * (j.getD k []).getD i 0) ^ 2 := by
    unfold derphi
    dsimp only
    rw [f2, Finset.mul_sum]
    refine Finset.sum_congr rfl fun i _ => ?_
    rw [f2]
    ring
  unfold accepts sqSum
  rw [hA, if_pos rfl, decide_eq_true_iff, f1, f1, zero_add, zero_add, hd, add_comm]

example : derphi [(1 : ℚ), 2] [[1, 0], [3, 1]] = 4 * (7 ^ 2 + 2 ^ 2) := by decide +kernel

end Verif.Systems
