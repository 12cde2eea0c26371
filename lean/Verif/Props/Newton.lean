import Verif.Model.Newton
import Verif.Props.Bracketing

/-! # C27, C28: open root finders `secant`, `newton`, `halley` and `fixed_point` -/

namespace Verif
open Verif.Solve

section Generic
variable {K : Type _} [Field K] [LinearOrder K] [IsStrictOrderedRing K]

/-- `x` respects the optional bounds -/
def Within (low high : Option K) (x : K) : Prop := (∀ l ∈ low, l ≤ x) ∧ (∀ h ∈ high, x ≤ h)

theorem clampB_within {low high : Option K} (hlh : ∀ l ∈ low, ∀ h ∈ high, l ≤ h) (p : K) : Within low high (clampB low high p) := by
  cases low <;> cases high <;> simp only [clampB, Within, Option.mem_def, Option.some.injEq, forall_eq', reduceCtorEq,
    false_implies, implies_true, true_and, and_true] at * <;> split_ifs <;> (try constructor) <;> linarith

theorem mid_within {low high : Option K} {a b : K} (ha : Within low high a) (hb : Within low high b) :
    Within low high (1 / 2 * (a + b)) :=
  ⟨fun l hl => by have := ha.1 l hl; have := hb.1 l hl; linarith, fun h hh => by have := ha.2 h hh; have := hb.2 h hh; linarith⟩

/-! ### secant -/

theorem secantNext_within (o : SecantOpts K) (s : SecantSt K) (hlh : ∀ l ∈ o.low, ∀ h ∈ o.high, l ≤ h)
    (ha : ∀ a ∈ s.a, Within o.low o.high a) (hb : ∀ b ∈ s.b, Within o.low o.high b) : Within o.low o.high (secantNext o s) := by
  simp only [secantNext]
  have hc := clampB_within hlh (if s.q1 ≠ s.q0 then s.p1 - s.q1 * (s.p1 - s.p0) / (s.q1 - s.q0) * o.damping else s.p1)
  generalize clampB o.low o.high _ = p at hc
  cases o.bisection with
  | false => exact hc
  | true =>
    cases h1 : s.a with
    | none => exact hc
    | some a =>
      cases h2 : s.b with
      | none => exact hc
      | some b =>
        simp only [if_true]
        split_ifs
        · exact mid_within (ha a (by rw [h1]; rfl)) (hb b (by rw [h2]; rfl))
        · exact hc

theorem secantRecord_within {low high : Option K} {ab : Option K × Option K} {p q : K} (hp : Within low high p)
    (ha : ∀ a ∈ ab.1, Within low high a) (hb : ∀ b ∈ ab.2, Within low high b) :
    (∀ a ∈ (secantRecord ab p q).1, Within low high a) ∧ (∀ b ∈ (secantRecord ab p q).2, Within low high b) := by
  unfold secantRecord
  split_ifs
  · refine ⟨fun a h => ?_, hb⟩
    cases h; exact hp
  · refine ⟨ha, fun a h => ?_⟩
    cases h; exact hp

/-- without additional guesses, the `q1 == q0` branch does not evaluate the function -/
theorem secantSame_spec (f g : K → Py K) (o : SecantOpts K) (x0 : K) (s : SecantSt K) (p : K) (hag : o.additional_guesses = false) :
    secantSame f o x0 s p = secantSame g o x0 s p ∧
    ∀ r, secantSame f o x0 s p = .ok r → r.1.a = s.a ∧ r.1.b = s.b ∧
      (r.1.xtol = s.xtol.map (· * o.same_tol) ∧ r.1.ytol = s.ytol.map (· * o.same_tol)) ∧
      (r.2 = none → secantDone2 o { s with xtol := s.xtol.map (· * o.same_tol), ytol := s.ytol.map (· * o.same_tol) } = true) ∧
      ∀ p' ∈ r.2, ∃ a ∈ s.a, ∃ b ∈ s.b, p' = 1 / 2 * (a + b) := by
  simp only [secantSame, hag, Bool.false_eq_true, false_and, if_false]
  split_ifs with h
  · refine ⟨trivial, fun r hr => ?_⟩
    cases hr
    exact ⟨rfl, rfl, ⟨rfl, rfl⟩, fun _ => h, by simp⟩
  · refine ⟨trivial, fun r hr => ?_⟩
    split at hr
    · rename_i a b e1 e2 e3
      cases hr
      refine ⟨rfl, rfl, ⟨rfl, rfl⟩, by simp, fun p' hp' => ?_⟩
      cases hp'
      exact ⟨a, e2, b, e3, rfl⟩
    · cases hr

theorem secantLoop_bounds (f g : K → Py K) (o : SecantOpts K) (x0 : K) (hlh : ∀ l ∈ o.low, ∀ h ∈ o.high, l ≤ h)
    (hag : o.additional_guesses = false) (hfg : ∀ x, Within o.low o.high x → f x = g x) (n : ℕ) :
    ∀ s : SecantSt K, Within o.low o.high s.p1 → (∀ a ∈ s.a, Within o.low o.high a) → (∀ b ∈ s.b, Within o.low o.high b) →
      secantLoop f o x0 n s = secantLoop g o x0 n s ∧ ∀ r, secantLoop f o x0 n s = .ok r → Within o.low o.high r := by
  induction n with
  | zero => intro s _ _ _; simp [secantLoop]
  | succ n ih =>
    intro s h1 ha hb
    have hp := secantNext_within o s hlh ha hb
    obtain ⟨same1, same2⟩ := secantSame_spec f g o x0 s (secantNext o s) hag
    rw [secantLoop, secantLoop]
    simp only
    generalize secantNext o s = p at *
    by_cases hd : secantDone o s = true
    · simp only [if_pos hd, true_and]
      intro r hr
      cases hr
      split_ifs
      exacts [h1, hp]
    · simp only [if_neg hd]
      -- the branch taken on equal values
      have key : (if s.q1 = s.q0 then secantSame f o x0 s p else .ok (s, some p)) =
          (if s.q1 = s.q0 then secantSame g o x0 s p else .ok (s, some p)) ∧
          ∀ r, (if s.q1 = s.q0 then secantSame f o x0 s p else .ok (s, some p)) = .ok r →
            r.1.a = s.a ∧ r.1.b = s.b ∧ ∀ p' ∈ r.2, Within o.low o.high p' := by
        split_ifs with he
        · refine ⟨same1, fun r hr => ?_⟩
          obtain ⟨e1, e2, -, -, e3⟩ := same2 r hr
          refine ⟨e1, e2, fun p' hp' => ?_⟩
          obtain ⟨a, h1, b, h2, rfl⟩ := e3 p' hp'
          exact mid_within (ha a h1) (hb b h2)
        · refine ⟨rfl, fun r hr => ?_⟩
          cases hr
          refine ⟨rfl, rfl, fun p' hp' => ?_⟩
          cases hp'; exact hp
      rw [← key.1]
      rcases hr : (if s.q1 = s.q0 then secantSame f o x0 s p else .ok (s, some p)) with e | ⟨s', o'⟩
      · simp
      · obtain ⟨k1, k2, k3⟩ := key.2 _ hr
        simp only [Py.ok_bind]
        cases o' with
        | none => simp only [true_and]; intro r hr; cases hr; exact hp
        | some p' =>
          simp only
          have hp' := k3 p' rfl
          rw [← hfg p' hp']
          rcases hq : f p' with e | q
          · simp
          · simp only [Py.ok_bind]
            by_cases h0 : q = 0
            · simp only [if_pos h0, true_and]; intro r hr; cases hr; exact hp'
            · simp only [if_neg h0]
              simp only at k1 k2
              have hab : (∀ a ∈ (if o.bisection = true then secantRecord (s'.a, s'.b) p' q else (s'.a, s'.b)).1, Within o.low o.high a) ∧
                  (∀ b ∈ (if o.bisection = true then secantRecord (s'.a, s'.b) p' q else (s'.a, s'.b)).2, Within o.low o.high b) := by
                split_ifs
                · exact secantRecord_within hp' (by simpa [k1] using ha) (by simpa [k2] using hb)
                · exact ⟨by simpa [k1] using ha, by simpa [k2] using hb⟩
              exact ih _ hp' hab.1 hab.2

/-- C27: bounds. With consistent bounds and starting points inside them (and without `additional_guesses`), `secant` never looks
at the objective outside `[low, high]` — two objectives that agree there give the same outcome — and it returns a point
inside. -/
theorem C27_secant_bounds (f g : K → Py K) (o : SecantOpts K) (x0 : K) (x1 f0 f1 : Option K) (maxiter : ℕ)
    (hlh : ∀ l ∈ o.low, ∀ h ∈ o.high, l ≤ h) (hag : o.additional_guesses = false)
    (h0 : Within o.low o.high x0) (h1 : ∀ x ∈ x1, Within o.low o.high x)
    (hfg : ∀ x, Within o.low o.high x → f x = g x) :
    secant f o x0 x1 f0 f1 maxiter = secant g o x0 x1 f0 f1 maxiter ∧
    ∀ r, secant f o x0 x1 f0 f1 maxiter = .ok r → Within o.low o.high r := by
  have hp1 : Within o.low o.high (secantP1 o x0 x1) := by
    cases x1 with
    | none => exact clampB_within hlh _
    | some x => exact h1 x rfl
  simp only [secant, hag, Bool.false_eq_true, and_false, if_false, Py.ok_bind]
  generalize secantP1 o x0 x1 = p1 at *
  rw [← hfg x0 h0, ← hfg p1 hp1]
  rcases given f0 (f x0) with e | q0
  · simp
  simp only [Py.ok_bind]
  by_cases d0 : secantStartDone o q0 = true
  · simp only [if_pos d0, true_and]; intro r hr; cases hr; exact h0
  simp only [if_neg d0]
  rcases given f1 (f p1) with e | q1
  · simp
  simp only [Py.ok_bind]
  by_cases d1 : secantStartDone o q1 = true
  · simp only [if_pos d1, true_and]; intro r hr; cases hr; exact hp1
  simp only [if_neg d1]
  by_cases hm : maxiter = 0
  · simp [hm]
  simp only [if_neg hm]
  have hab : (∀ a ∈ (if o.bisection = true then secantRecord (secantRecord (none, none) p1 q1) x0 q0 else (none, none)).1,
        Within o.low o.high a) ∧
      (∀ b ∈ (if o.bisection = true then secantRecord (secantRecord (none, none) p1 q1) x0 q0 else (none, none)).2,
        Within o.low o.high b) := by
    split_ifs
    · have := secantRecord_within (ab := (none, none)) (q := q1) hp1 (by simp) (by simp)
      exact secantRecord_within h0 this.1 this.2
    · simp
  exact secantLoop_bounds f g o x0 hlh hag hfg maxiter _ hp1 hab.1 hab.2

/-- C27 (finding): with `additional_guesses` the bounds are not respected: started at `1/2` with bounds `[2/5, 3/5]`, `secant`
returns `19/110` when the objective happens to vanish there. -/
theorem C27_secant_leaves_bounds : secant (fun x : ℚ => .ok (if x < 3 / 10 then 0 else 1))
    ⟨some (2/5), some (3/5), 1, some (1/1000000), none, false, false, 1, true, true, 1⟩ (1/2) none none none 10 = .ok (19/110) := by
  decide +kernel

/-- C27 (finding): with `xtol` coarser than the built-in first step and no `ytol`, `secant` accepts its second guess whatever the
objective is: on `x^2 - 2` from `1` it returns a point with residual about `1/4`. -/
theorem C27_secant_first_step : secant (fun x : ℚ => .ok (x * x - 2))
    ⟨none, none, 1, some (1/1000), none, false, false, 1, true, false, 1⟩ 1 none none none 10 = .ok (15001/10001) := by
  decide +kernel

theorem secantLoop_post (f : K → Py K) (o : SecantOpts K) (x0 : K) (hag : o.additional_guesses = false) (hst : o.same_tol = 1)
    (n : ℕ) : ∀ s : SecantSt K, s.xtol = o.xtol → s.ytol = o.ytol → f s.p0 = .ok s.q0 → f s.p1 = .ok s.q1 →
      (∀ r, secantLoop f o x0 n s = .ok r → f r = .ok 0 ∨ ∃ p0 p1 v0 v, f p0 = .ok v0 ∧ f p1 = .ok v ∧
        (o.require_eval = true → r = p1) ∧ (∀ yt ∈ o.ytol, |v| < yt) ∧
        ((o.require_xtol = true ∨ o.ytol = none) → ∀ xt ∈ o.xtol, |p0 - p1| ≤ |xt * p0|) ∧ (o.xtol.isSome ∨ o.ytol.isSome)) ∧
      (∀ e, secantLoop f o x0 n s = .error e → e = .unconvergedError ∨ e = .samePointError ∨ ∃ x, f x = .error e) := by
  induction n with
  | zero => intro s _ _ _ _; exact ⟨fun r h => (by cases h), fun e h => by cases h; exact Or.inl rfl⟩
  | succ n ih =>
    intro s hx hy hp0 hp1
    obtain ⟨-, same2⟩ := secantSame_spec f f o x0 s (secantNext o s) hag
    have e1 : s.xtol.map (· * o.same_tol) = s.xtol := by rw [hst]; simp
    have e2 : s.ytol.map (· * o.same_tol) = s.ytol := by rw [hst]; simp
    rw [e1, e2] at same2
    rw [secantLoop]
    simp only
    by_cases hd : secantDone o s = true
    · simp only [if_pos hd]
      refine ⟨fun r hr => Or.inr ⟨s.p0, s.p1, s.q0, s.q1, hp0, hp1, ?_⟩, fun e he => by cases he⟩
      simp only [secantDone, hx, hy] at hd
      refine ⟨fun h => by simp only [h, if_true] at hr; cases hr; rfl, ?_⟩
      cases hyt : o.ytol <;> cases hxt : o.xtol <;> simp only [hyt, hxt] at hd <;> simp_all
      rcases hd.2 with h | h
      · intro h'; rw [h] at h'; simp at h'
      · exact fun _ => h
    · simp only [if_neg hd]
      have notdone2 : ¬ secantDone2 o s = true := by
        intro h
        apply hd
        simp only [secantDone2, secantDone] at h ⊢
        cases hyt : s.ytol <;> cases hxt : s.xtol <;> simp only [hyt, hxt] at h ⊢ <;> simp_all
      rcases hr : (if s.q1 = s.q0 then secantSame f o x0 s (secantNext o s) else .ok (s, some (secantNext o s))) with e | ⟨s', o'⟩
      · simp only [Py.error_bind]
        refine ⟨fun r h => by (cases h), fun e' h => ?_⟩
        cases h
        right; left
        split_ifs at hr
        simp only [secantSame, hag, Bool.false_eq_true, false_and, if_false] at hr
        split_ifs at hr
        split at hr
        · cases hr
        · cases hr; rfl
      · have key : s'.xtol = o.xtol ∧ s'.ytol = o.ytol ∧ o' ≠ none := by
          split_ifs at hr
          · obtain ⟨-, -, ⟨t1, t2⟩, t3, -⟩ := same2 _ hr
            exact ⟨t1.trans hx, t2.trans hy, fun h => notdone2 (t3 h)⟩
          · cases hr; exact ⟨hx, hy, by simp⟩
        simp only [Py.ok_bind]
        cases o' with
        | none => exact absurd rfl key.2.2
        | some p' =>
          simp only
          rcases hq : f p' with e | q
          · simp only [Py.error_bind]
            refine ⟨fun r h => by (cases h), fun e' h => ?_⟩
            cases h
            exact Or.inr (Or.inr ⟨p', hq⟩)
          · simp only [Py.ok_bind]
            by_cases h0 : q = 0
            · simp only [if_pos h0]
              refine ⟨fun r h => ?_, fun e' h => by cases h⟩
              cases h
              left; rw [hq, h0]
            · simp only [if_neg h0]
              exact ih _ key.1 key.2.1 hp1 hq

/-- C27: the convergence contract of `secant` (default `same_tol`, no additional guesses, any objective). A returned point is an exact
zero; or a starting point already under `ytol` when the x tolerance is not required; or it comes from a point `p1` (and is
that point if `require_eval`) whose value meets the requested `ytol` and whose distance to another evaluated point meets the
requested `xtol`. Otherwise the call raises `UnconvergedError`, `SamePointError` or the objective's own error. -/
theorem C27_secant_post (f : K → Py K) (o : SecantOpts K) (x0 : K) (x1 : Option K) (maxiter : ℕ) (hm : 0 < maxiter)
    (hag : o.additional_guesses = false) (hst : o.same_tol = 1) :
    (∀ r, secant f o x0 x1 none none maxiter = .ok r → f r = .ok 0 ∨
      (o.require_xtol = false ∧ ∃ yt ∈ o.ytol, ∃ v, f r = .ok v ∧ |v| < yt) ∨
      ∃ p0 p1 v0 v, f p0 = .ok v0 ∧ f p1 = .ok v ∧
        (o.require_eval = true → r = p1) ∧ (∀ yt ∈ o.ytol, |v| < yt) ∧
        ((o.require_xtol = true ∨ o.ytol = none) → ∀ xt ∈ o.xtol, |p0 - p1| ≤ |xt * p0|) ∧ (o.xtol.isSome ∨ o.ytol.isSome)) ∧
    (∀ e, secant f o x0 x1 none none maxiter = .error e → e = .unconvergedError ∨ e = .samePointError ∨ ∃ x, f x = .error e) := by
  have start : ∀ p q, f p = .ok q → secantStartDone o q = true → f p = .ok 0 ∨
      (o.require_xtol = false ∧ ∃ yt ∈ o.ytol, ∃ v, f p = .ok v ∧ |v| < yt) := by
    intro p q hq hd
    simp only [secantStartDone, decide_eq_true_eq] at hd
    rcases hd with ⟨⟨yt, h1, h2⟩, h3⟩ | h
    · exact Or.inr ⟨by simpa using h3, yt, h1, q, hq, h2⟩
    · left; rw [hq, h]
  simp only [secant, hag, Bool.false_eq_true, and_false, if_false, Py.ok_bind, given]
  generalize secantP1 o x0 x1 = p1
  rcases hq0 : f x0 with e | q0
  · simp only [Py.error_bind]
    exact ⟨fun r h => by (cases h), fun e' h => by cases h; exact Or.inr (Or.inr ⟨x0, hq0⟩)⟩
  simp only [Py.ok_bind]
  by_cases d0 : secantStartDone o q0 = true
  · simp only [if_pos d0]
    refine ⟨fun r h => ?_, fun e' h => by cases h⟩
    cases h
    rcases start x0 q0 hq0 d0 with h | h
    exacts [Or.inl h, Or.inr (Or.inl h)]
  simp only [if_neg d0]
  rcases hq1 : f p1 with e | q1
  · simp only [Py.error_bind]
    exact ⟨fun r h => by (cases h), fun e' h => by cases h; exact Or.inr (Or.inr ⟨p1, hq1⟩)⟩
  simp only [Py.ok_bind]
  by_cases d1 : secantStartDone o q1 = true
  · simp only [if_pos d1]
    refine ⟨fun r h => ?_, fun e' h => by cases h⟩
    cases h
    rcases start p1 q1 hq1 d1 with h | h
    exacts [Or.inl h, Or.inr (Or.inl h)]
  simp only [if_neg d1, if_neg hm.ne']
  obtain ⟨l1, l2⟩ := secantLoop_post f o x0 hag hst maxiter
    ⟨x0, q0, p1, q1, (if o.bisection = true then secantRecord (secantRecord (none, none) p1 q1) x0 q0 else (none, none)).1,
      (if o.bisection = true then secantRecord (secantRecord (none, none) p1 q1) x0 q0 else (none, none)).2, o.xtol, o.ytol, false⟩
    rfl rfl hq0 hq1
  exact ⟨fun r h => (l1 r h).imp id Or.inr, l2⟩

example : secant (fun x : ℚ => .ok (x * x - 2)) ⟨some 0, some 3, 1, some (1/10000), some (1/1000), true, false, 1, true, false, 1⟩
    1 (some 2) none none 10 = .ok (47321/33461) := by decide +kernel

/-! ### newton -/

theorem newtonSearch_bounds (f g : K → Py (NewtonEval K)) (o : NewtonOpts K) (x0 : K) (hlh : ∀ l ∈ o.low, ∀ h ∈ o.high, l ≤ h)
    (hfg : ∀ x, Within o.low o.high x → f x = g x) (reinit bracket : Bool) (s : NewtonSt K) (fs : List K) : ∀ it,
    newtonSearch f o x0 reinit bracket s fs it = newtonSearch g o x0 reinit bracket s fs it ∧
    ∀ r, newtonSearch f o x0 reinit bracket s fs it = .ok r → it ≤ r.1 ∧ ∀ gv ∈ r.2, Within o.low o.high gv.1 ∧ f gv.1 = .ok gv.2 ∧ gv.2.2.1 ≠ 0 := by
  induction fs with
  | nil =>
    intro it
    exact ⟨rfl, fun r h => by cases h; exact ⟨le_rfl, by simp⟩⟩
  | cons a t ih =>
    intro it
    rw [newtonSearch, newtonSearch]
    rcases newtonRaw x0 reinit s a with e | raw
    · simp
    simp only [Py.ok_bind]
    have hc := clampB_within hlh raw
    generalize clampB o.low o.high raw = guess at hc
    have lift : ∀ r, newtonSearch f o x0 reinit bracket s t (it + 1) = .ok r → it ≤ r.1 ∧
        ∀ gv ∈ r.2, Within o.low o.high gv.1 ∧ f gv.1 = .ok gv.2 ∧ gv.2.2.1 ≠ 0 := fun r h => by
      obtain ⟨h1, h2⟩ := (ih (it + 1)).2 r h
      exact ⟨by omega, h2⟩
    by_cases hg : guess = s.p0
    · simp only [if_pos hg]
      exact ⟨(ih (it + 1)).1, lift⟩
    simp only [if_neg hg]
    rw [← hfg guess hc]
    rcases hv : f guess with e | v
    · simp
    simp only [Py.ok_bind]
    rcases newtonSkip bracket s v.1 with e | skip
    · simp
    simp only [Py.ok_bind]
    by_cases hs : skip = true ∨ v.2.1 = 0
    · simp only [if_pos hs]
      exact ⟨(ih (it + 1)).1, lift⟩
    · simp only [if_neg hs, true_and]
      intro r hr
      cases hr
      refine ⟨by simp, fun gv hgv => ?_⟩
      cases hgv
      exact ⟨hc, hv, fun h => hs (Or.inr h)⟩

theorem newtonRecover_bounds (f g : K → Py (NewtonEval K)) (o : NewtonOpts K) (x0 : K) (hlh : ∀ l ∈ o.low, ∀ h ∈ o.high, l ≤ h)
    (hfg : ∀ x, Within o.low o.high x → f x = g x) (s : NewtonSt K) (hp : Within o.low o.high s.p0) :
    newtonRecover f o x0 s = newtonRecover g o x0 s ∧
    (∀ r, newtonRecover f o x0 s = .ok (.ret r) → r = s.p0 ∧ ∃ v, f s.p0 = .ok v ∧ (v.1 = 0 ∨ ∃ yt ∈ o.ytol, |v.1| < yt)) ∧
    (∀ p0 v it did, newtonRecover f o x0 s = .ok (.go p0 v it did) → s.it ≤ it ∧ Within o.low o.high p0 ∧ f p0 = .ok v ∧ v.2.1 ≠ 0) := by
  simp only [newtonRecover]
  rw [← hfg s.p0 hp]
  rcases hv : f s.p0 with e | v
  · simp
  simp only [Py.ok_bind]
  by_cases h0 : v.1 = 0
  · simp only [if_pos h0, true_and]
    refine ⟨fun r h => ?_, fun p0 v it did h => by cases h⟩
    cases h; exact ⟨rfl, v, rfl, Or.inl h0⟩
  simp only [if_neg h0]
  by_cases h1 : v.2.1 = 0 ∨ newtonStuck s = true
  · simp only [if_pos h1]
    by_cases h2 : ∃ yt ∈ o.ytol, |v.1| < yt
    · simp only [if_pos h2, true_and]
      refine ⟨fun r h => ?_, fun p0 v it did h => by cases h⟩
      cases h; exact ⟨rfl, v, rfl, Or.inr h2⟩
    simp only [if_neg h2]
    by_cases h3 : newtonStuck s = true ∧ (¬ o.additional_guesses = true ∨ s.did = true)
    · simp only [if_pos h3, true_and]
      exact ⟨fun r h => (by cases h), fun p0 v' it did h => by cases h⟩
    simp only [if_neg h3]
    by_cases h4 : s.it = 0 ∧ ¬ o.additional_guesses = true
    · simp only [if_pos h4, true_and]
      exact ⟨fun r h => (by cases h), fun p0 v' it did h => by cases h⟩
    simp only [if_neg h4]
    generalize (o.additional_guesses && (decide (s.it = 0) || newtonStuck s || decide (some v.1 = s.fval0))) = reinit
    generalize (reinit && decide (some v.1 = s.fval0) && o.bisection) = bracket
    obtain ⟨n1, n2⟩ := newtonSearch_bounds f g o x0 hlh hfg reinit bracket s (if reinit = true then secantFactors
          else lineSearchFactors) s.it
    rw [← n1]
    rcases hr : newtonSearch f o x0 reinit bracket s (if reinit = true then secantFactors else lineSearchFactors) s.it with e | ⟨it, o'⟩
    · simp
    · obtain ⟨n3, n4⟩ := n2 _ hr
      cases o' with
      | none => simp
      | some gv =>
        simp only [Py.ok_bind, true_and]
        refine ⟨fun r h => (by cases h), fun p0 v' it' did h => ?_⟩
        cases h
        obtain ⟨m1, m2, m3⟩ := n4 gv rfl
        exact ⟨n3, m1, m2, m3⟩
  · simp only [if_neg h1, true_and]
    refine ⟨fun r h => (by cases h), fun p0 v' it did h => ?_⟩
    cases h
    exact ⟨le_rfl, hp, hv, fun h => h1 (Or.inl h)⟩

theorem newtonBound_low (o : NewtonOpts K) (p0 fval p : K) (hits : ℕ) :
    (∀ r, newtonBound o o.low (fun p l => decide (p < l)) p0 fval p hits = .ok (.inl r) → r = p0 ∧ ∃ yt ∈ o.ytol, |fval| < yt) ∧
    (∀ q, newtonBound o o.low (fun p l => decide (p < l)) p0 fval p hits = .ok (.inr q) → ∀ l ∈ o.low, l ≤ q.1) ∧
    (∀ e, newtonBound o o.low (fun p l => decide (p < l)) p0 fval p hits = .error e → e = .unconvergedError) := by
  simp only [newtonBound]
  cases o.low with
  | none => simp
  | some l =>
    simp only [decide_eq_true_eq]
    split_ifs with h1 h2 h3
    · refine ⟨fun r h => ?_, fun q h => by (cases h), fun e h => by cases h⟩
      cases h; exact ⟨h2.1.symm, h3⟩
    · refine ⟨fun r h => (by cases h), fun q h => (by cases h), fun e h => by cases h; rfl⟩
    · refine ⟨fun r h => (by cases h), fun q h => ?_, fun e h => by cases h⟩
      cases h; simp
    · refine ⟨fun r h => (by cases h), fun q h => ?_, fun e h => by cases h⟩
      cases h; simpa using h1

theorem newtonBound_high (o : NewtonOpts K) (p0 fval p : K) (hits : ℕ) (hlh : ∀ l ∈ o.low, ∀ h ∈ o.high, l ≤ h)
    (hp : ∀ l ∈ o.low, l ≤ p) :
    (∀ r, newtonBound o o.high (fun p l => decide (p > l)) p0 fval p hits = .ok (.inl r) → r = p0 ∧ ∃ yt ∈ o.ytol, |fval| < yt) ∧
    (∀ q, newtonBound o o.high (fun p l => decide (p > l)) p0 fval p hits = .ok (.inr q) → Within o.low o.high q.1) ∧
    (∀ e, newtonBound o o.high (fun p l => decide (p > l)) p0 fval p hits = .error e → e = .unconvergedError) := by
  simp only [newtonBound]
  cases hh : o.high with
  | none => exact ⟨fun r h => (by cases h), fun q h => by cases h; exact ⟨hp, by simp⟩, fun e h => by cases h⟩
  | some l =>
    simp only [decide_eq_true_eq]
    split_ifs with h1 h2 h3
    · refine ⟨fun r h => ?_, fun q h => by (cases h), fun e h => by cases h⟩
      cases h; exact ⟨h2.1.symm, h3⟩
    · refine ⟨fun r h => (by cases h), fun q h => (by cases h), fun e h => by cases h; rfl⟩
    · refine ⟨fun r h => (by cases h), fun q h => ?_, fun e h => by cases h⟩
      cases h; exact ⟨fun l' hl' => hlh l' hl' l (by rw [hh]; rfl), by simp⟩
    · refine ⟨fun r h => (by cases h), fun q h => ?_, fun e h => by cases h⟩
      cases h; exact ⟨hp, by simpa using h1⟩

/-- what justifies a point `r` returned by `newton`: an evaluated point `p0` with value `v`, and
(A) `v` is zero and `r = p0`; or (B) the search stalled at `p0` with `|v| < ytol` and `r = p0`; or (C) the next point `p` was
computed, the requested tolerances are met, and `r` is `p0` (if `require_eval`) or `p`. -/
def NewtonOk (f : K → Py (NewtonEval K)) (o : NewtonOpts K) (r : K) : Prop :=
  ∃ p0 v, f p0 = .ok v ∧ ((v.1 = 0 ∧ r = p0) ∨ ((∃ yt ∈ o.ytol, |v.1| < yt) ∧ r = p0) ∨
    ∃ p, r = (if o.require_eval = true then p0 else p) ∧ (∀ yt ∈ o.ytol, |v.1| ≤ yt) ∧
      ((o.require_xtol = true ∨ o.ytol = none) → ∀ xt ∈ o.xtol, |p - p0| ≤ |xt * p|) ∧ (o.xtol.isSome ∨ o.ytol.isSome))

theorem newtonDone_spec (o : NewtonOpts K) (p0 fval p : K) (h : newtonDone o p0 fval p = true) :
    (∀ yt ∈ o.ytol, |fval| ≤ yt) ∧ ((o.require_xtol = true ∨ o.ytol = none) → ∀ xt ∈ o.xtol, |p - p0| ≤ |xt * p|) ∧
    (o.xtol.isSome ∨ o.ytol.isSome) := by
  simp only [newtonDone] at h
  cases hyt : o.ytol <;> cases hxt : o.xtol <;> simp only [hyt, hxt, decide_eq_true_eq, Bool.false_eq_true] at h <;>
    simp only [Option.mem_def, Option.some.injEq, forall_eq', reduceCtorEq, false_implies, implies_true, true_and, and_true,
      Option.isSome_some, Option.isSome_none, or_true, true_or, or_false, Bool.false_eq_true]
  · exact fun _ => h.le
  · exact h.le
  · rcases h with ⟨h1, h2⟩ | ⟨h1, h2⟩
    · exact ⟨h2, fun _ => h1⟩
    · refine ⟨h2, fun h' => ?_⟩
      rw [h'] at h1; simp at h1

theorem newtonLoop_spec (f g : K → Py (NewtonEval K)) (o : NewtonOpts K) (x0 : K) (maxiter : ℕ)
    (hlh : ∀ l ∈ o.low, ∀ h ∈ o.high, l ≤ h) (hfg : ∀ x, Within o.low o.high x → f x = g x) (n : ℕ) : ∀ s : NewtonSt K,
    Within o.low o.high s.p0 →
    newtonLoop f o x0 maxiter n s = newtonLoop g o x0 maxiter n s ∧
    ∀ r, newtonLoop f o x0 maxiter n s = .ok r → Within o.low o.high r ∧ NewtonOk f o r := by
  induction n with
  | zero => intro s _; exact ⟨rfl, fun r h => by cases h⟩
  | succ n ih =>
    intro s hp
    rw [newtonLoop, newtonLoop]
    by_cases hit : s.it < maxiter
    · simp only [if_pos hit]
      obtain ⟨r1, r2, r3⟩ := newtonRecover_bounds f g o x0 hlh hfg s hp
      rw [← r1]
      rcases hg : newtonRecover f o x0 s with e | go
      · simp
      cases go with
      | ret r =>
        simp only [Py.ok_bind, true_and]
        intro r' hr'
        cases hr'
        obtain ⟨rfl, v, v1, v2⟩ := r2 r hg
        refine ⟨hp, s.p0, v, v1, ?_⟩
        rcases v2 with h | h
        exacts [Or.inl ⟨h, rfl⟩, Or.inr (Or.inl ⟨h, rfl⟩)]
      | go p0 v it did =>
        obtain ⟨g1, g2, g3, g4⟩ := r3 p0 v it did hg
        simp only [Py.ok_bind]
        rcases newtonStep o p0 v with e | p
        · simp
        simp only [Py.ok_bind]
        generalize newtonBisect o _ _ it p = p
        obtain ⟨l1, l2, l3⟩ := newtonBound_low o p0 v.1 p s.hit_low
        rcases hl : newtonBound o o.low (fun p l => decide (p < l)) p0 v.1 p s.hit_low with e | (r | lo)
        · simp
        · simp only [Py.ok_bind, true_and]
          intro r' hr'
          cases hr'
          obtain ⟨rfl, hy⟩ := l1 _ hl
          exact ⟨g2, r, v, g3, Or.inr (Or.inl ⟨hy, rfl⟩)⟩
        simp only [Py.ok_bind]
        obtain ⟨h1, h2, h3⟩ := newtonBound_high o p0 v.1 lo.1 s.hit_high hlh (l2 _ hl)
        rcases hh : newtonBound o o.high (fun p l => decide (p > l)) p0 v.1 lo.1 s.hit_high with e | (r | hi)
        · simp
        · simp only [Py.ok_bind, true_and]
          intro r' hr'
          cases hr'
          obtain ⟨rfl, hy⟩ := h1 _ hh
          exact ⟨g2, r, v, g3, Or.inr (Or.inl ⟨hy, rfl⟩)⟩
        simp only [Py.ok_bind]
        have hw := h2 _ hh
        by_cases hd : newtonDone o p0 v.1 hi.1 = true
        · simp only [if_pos hd, true_and]
          intro r' hr'
          cases hr'
          refine ⟨?_, p0, v, g3, Or.inr (Or.inr ⟨hi.1, rfl, newtonDone_spec o p0 v.1 hi.1 hd⟩)⟩
          split_ifs
          exacts [g2, hw]
        · simp only [if_neg hd]
          exact ih _ hw
    · simp only [if_neg hit, true_and]
      intro r h; cases h

/-- C27: `newton`, any objective (with or without second derivative), any damping function, with or without bisection and additional
guesses. If the start is within consistent bounds, `newton` never looks at the objective outside them, a returned point is
inside, and it is justified: an exact zero, a stall with `|f| < ytol`, or a step meeting the requested tolerances. -/
theorem C27_newton (f g : K → Py (NewtonEval K)) (o : NewtonOpts K) (x0 : K) (maxiter : ℕ)
    (hlh : ∀ l ∈ o.low, ∀ h ∈ o.high, l ≤ h) (h0 : Within o.low o.high x0) (hfg : ∀ x, Within o.low o.high x → f x = g x) :
    newton f o x0 maxiter = newton g o x0 maxiter ∧
    ∀ r, newton f o x0 maxiter = .ok r → Within o.low o.high r ∧ NewtonOk f o r := by
  simp only [newton]
  by_cases hm : maxiter = 0
  · simp [hm]
  · simp only [if_neg hm]
    exact newtonLoop_spec f g o x0 maxiter hlh hfg _ _ h0

/-- C27: in particular with `require_eval` and a `ytol`, the returned point itself has `|f r| ≤ ytol`. -/
theorem C27_newton_require_eval (f : K → Py (NewtonEval K)) (o : NewtonOpts K) (x0 : K) (maxiter : ℕ) (yt : K) (hyt : o.ytol = some yt)
    (hy0 : 0 ≤ yt) (hev : o.require_eval = true) (hlh : ∀ l ∈ o.low, ∀ h ∈ o.high, l ≤ h) (h0 : Within o.low o.high x0) (r : K)
    (h : newton f o x0 maxiter = .ok r) : ∃ v, f r = .ok v ∧ |v.1| ≤ yt := by
  obtain ⟨-, p0, v, hv, h'⟩ := (C27_newton f f o x0 maxiter hlh h0 (fun _ _ => rfl)).2 r h
  rw [hyt] at h'
  rcases h' with ⟨h1, rfl⟩ | ⟨⟨y, h1, h2⟩, rfl⟩ | ⟨p, h1, h2, -⟩
  · exact ⟨v, hv, by rw [h1, abs_zero]; exact hy0⟩
  · cases h1; exact ⟨v, hv, h2.le⟩
  · rw [if_pos hev] at h1
    subst h1
    exact ⟨v, hv, h2 yt rfl⟩

theorem newtonSearch_err (f : K → Py (NewtonEval K)) (o : NewtonOpts K) (x0 : K) (reinit bracket : Bool) (s : NewtonSt K)
    (hb : bracket = false) (hr : reinit = true ∨ s.p1 ≠ none) (fs : List K) : ∀ it e,
    newtonSearch f o x0 reinit bracket s fs it = .error e → ∃ x, f x = .error e := by
  induction fs with
  | nil => intro it e h; cases h
  | cons a t ih =>
    intro it e h
    rw [newtonSearch] at h
    rcases hraw : newtonRaw x0 reinit s a with e' | raw
    · simp only [newtonRaw] at hraw
      rcases hr with rfl | hp
      · simp at hraw
      · cases hp1 : s.p1 with
        | none => exact absurd hp1 hp
        | some p1 => rw [hp1] at hraw; simp only at hraw; split_ifs at hraw
    simp only [hraw, Py.ok_bind] at h
    split_ifs at h with h1
    · exact ih _ _ h
    rcases hv : f (clampB o.low o.high raw) with e' | v
    · rw [hv] at h; cases h; exact ⟨_, hv⟩
    simp only [hv, Py.ok_bind, newtonSkip, hb, Bool.false_eq_true, if_false, false_or] at h
    split_ifs at h with h2
    exact ih _ _ (by rw [hb]; exact h)

theorem newtonLoop_err (f : K → Py (NewtonEval K)) (o : NewtonOpts K) (x0 : K) (maxiter : ℕ) (hdf : o.damping_func = none)
    (hc : ∀ x v, f x = .ok v → v.2.2 = none) (hab : ¬ (o.additional_guesses = true ∧ o.bisection = true))
    (hlh : ∀ l ∈ o.low, ∀ h ∈ o.high, l ≤ h) (n : ℕ) : ∀ s : NewtonSt K, Within o.low o.high s.p0 → (s.p1 = none → s.it = 0) → ∀ e,
    newtonLoop f o x0 maxiter n s = .error e → e = .unconvergedError ∨ ∃ x, f x = .error e := by
  induction n with
  | zero => intro s _ _ e h; cases h; exact Or.inl rfl
  | succ n ih =>
    intro s hp hp1 e h
    rw [newtonLoop] at h
    by_cases hit : s.it < maxiter
    · simp only [if_pos hit] at h
      obtain ⟨-, r2, r3⟩ := newtonRecover_bounds f f o x0 hlh (fun _ _ => rfl) s hp
      rcases hg : newtonRecover f o x0 s with e' | go
      · rw [hg] at h
        cases h
        simp only [newtonRecover] at hg
        rcases hv : f s.p0 with e' | v
        · rw [hv] at hg; cases hg; exact Or.inr ⟨_, hv⟩
        simp only [hv, Py.ok_bind] at hg
        by_cases h0 : v.1 = 0
        · rw [if_pos h0] at hg; cases hg
        rw [if_neg h0] at hg
        by_cases h1 : v.2.1 = 0 ∨ newtonStuck s = true
        · rw [if_pos h1] at hg
          by_cases h2 : ∃ yt ∈ o.ytol, |v.1| < yt
          · rw [if_pos h2] at hg; cases hg
          rw [if_neg h2] at hg
          by_cases h3 : newtonStuck s = true ∧ (¬ o.additional_guesses = true ∨ s.did = true)
          · rw [if_pos h3] at hg; cases hg; exact Or.inl rfl
          rw [if_neg h3] at hg
          by_cases h4 : s.it = 0 ∧ ¬ o.additional_guesses = true
          · rw [if_pos h4] at hg; cases hg; exact Or.inl rfl
          rw [if_neg h4] at hg
          have hre : (o.additional_guesses && (decide (s.it = 0) || newtonStuck s || decide (some v.1 = s.fval0))) = true ∨ s.p1 ≠ none := by
            by_cases hpn : s.p1 = none
            · left
              have hi0 := hp1 hpn
              have : o.additional_guesses = true := by by_contra hh; exact h4 ⟨hi0, hh⟩
              simp [this, hi0]
            · exact Or.inr hpn
          have hbr : (o.additional_guesses && (decide (s.it = 0) || newtonStuck s || decide (some v.1 = s.fval0)) &&
              decide (some v.1 = s.fval0) && o.bisection) = false := by
            cases h5 : o.additional_guesses <;> cases h6 : o.bisection <;> simp_all
          generalize (o.additional_guesses && (decide (s.it = 0) || newtonStuck s || decide (some v.1 = s.fval0))) = reinit at *
          generalize (reinit && decide (some v.1 = s.fval0) && o.bisection) = bracket at *
          rcases hr : newtonSearch f o x0 reinit bracket s (if reinit = true then secantFactors else lineSearchFactors) s.it with e' | ⟨it, o'⟩
          · rw [hr] at hg
            cases hg
            exact Or.inr (newtonSearch_err f o x0 reinit bracket s hbr hre _ _ _ hr)
          · rw [hr] at hg
            cases o' with
            | none => simp only [Py.ok_bind] at hg; cases hg; exact Or.inl rfl
            | some gv => simp only [Py.ok_bind] at hg; cases hg
        · rw [if_neg h1] at hg; cases hg
      rw [hg] at h
      cases go with
      | ret r => cases h
      | go p0 v it did =>
        obtain ⟨g1, g2, g3, g4⟩ := r3 p0 v it did hg
        simp only [Py.ok_bind, newtonStep, hdf, pdiv_ok g4, hc p0 v g3] at h
        generalize newtonBisect o _ _ it _ = p at h
        obtain ⟨l1, l2, l3⟩ := newtonBound_low o p0 v.1 p s.hit_low
        rcases hl : newtonBound o o.low (fun p l => decide (p < l)) p0 v.1 p s.hit_low with e' | (r | lo)
        · rw [hl] at h; cases h; exact Or.inl (l3 _ hl)
        · rw [hl] at h; cases h
        simp only [hl, Py.ok_bind] at h
        obtain ⟨h1, h2, h3⟩ := newtonBound_high o p0 v.1 lo.1 s.hit_high hlh (l2 _ hl)
        rcases hh : newtonBound o o.high (fun p l => decide (p > l)) p0 v.1 lo.1 s.hit_high with e' | (r | hi)
        · rw [hh] at h; cases h; exact Or.inl (h3 _ hh)
        · rw [hh] at h; cases h
        simp only [hh, Py.ok_bind] at h
        by_cases hd : newtonDone o p0 v.1 hi.1 = true
        · rw [if_pos hd] at h; cases h
        rw [if_neg hd] at h
        exact ih _ (h2 _ hh) (by simp) e h
    · rw [if_neg hit] at h; cases h; exact Or.inl rfl

/-- C27: with first derivatives only, no damping function, and not both `bisection` and `additional_guesses`, the only way `newton`
fails (for `maxiter ≥ 1`) is `UnconvergedError` or an error of the objective itself. -/
theorem C27_newton_errors (f : K → Py (NewtonEval K)) (o : NewtonOpts K) (x0 : K) (maxiter : ℕ) (hm : 0 < maxiter)
    (hdf : o.damping_func = none) (hc : ∀ x v, f x = .ok v → v.2.2 = none)
    (hab : ¬ (o.additional_guesses = true ∧ o.bisection = true)) (hlh : ∀ l ∈ o.low, ∀ h ∈ o.high, l ≤ h)
    (h0 : Within o.low o.high x0) (e : PyErr) (h : newton f o x0 maxiter = .error e) :
    e = .unconvergedError ∨ ∃ x, f x = .error e := by
  simp only [newton, if_neg hm.ne'] at h
  exact newtonLoop_err f o x0 maxiter hdf hc hab hlh _ _ h0 (by simp) e h

/-- C27 (finding): with both `bisection` and `additional_guesses` a flat region met on the second pass makes `newton` multiply by
`None` (`TypeError`). -/
theorem C27_newton_type_error : newton (fun x : ℚ => .ok (if x = 2 then (1, 1, none) else (1, 0, none)))
    ⟨none, none, 1, some (1/10000), none, false, true, none, true, true, 4⟩ 2 10 = .error .typeError := by decide +kernel

/-- C27 (finding): `maxiter = 0` does not give `UnconvergedError` but `UnboundLocalError`. -/
theorem C27_newton_maxiter_zero (f : K → Py (NewtonEval K)) (o : NewtonOpts K) (x0 : K) :
    newton f o x0 0 = .error .unboundLocalError := rfl

example : newton (fun x : ℚ => .ok (x * x - 2, 2 * x, none)) ⟨some 0, some 3, 1, some (1/10000), some (1/1000), true, true, none,
    false, false, 4⟩ 1 10 = .ok (577/408) := by decide +kernel

/-! ### halley -/

/-- C27 (finding): without a `ytol`, `halley` returns a stationary point as if it were a root: `0` for `x^2 + 1`. -/
theorem C27_halley_stationary : halley (fun x : ℚ => .ok (x * x + 1, 2 * x, 2))
    ⟨none, none, 1, some (1/10000), none, false, none, false, 4, some (3/2)⟩ 0 10 = .ok 0 := by decide +kernel

/-- what justifies a point returned by `halley` when a `ytol` is given -/
theorem halleyLoop_post (f : K → Py (K × K × K)) (o : HalleyOpts K) (yt : K) (hyt : o.ytol = some yt) (n : ℕ) :
    ∀ p0 a b hl hh r, halleyLoop f o n p0 a b hl hh = .ok r →
      ∃ q v, f q = .ok v ∧ ((v.1 = 0 ∧ r = q) ∨ (|v.1| < yt ∧ (r = q ∨ o.require_eval = false ∧ ∀ xt ∈ o.xtol, |r - q| < |xt * r|))) := by
  induction n with
  | zero => intro p0 a b hl hh r h; cases h
  | succ n ih =>
    intro p0 a b hl hh r h
    rw [halleyLoop] at h
    rcases hv : f p0 with e' | v
    · rw [hv] at h; cases h
    simp only [hv, Py.ok_bind, hyt] at h
    by_cases h0 : v.1 = 0
    · rw [if_pos h0] at h; cases h; exact ⟨p0, v, hv, Or.inl ⟨h0, rfl⟩⟩
    rw [if_neg h0] at h
    by_cases h1 : v.2.1 = 0
    · rw [if_pos h1] at h
      split_ifs at h with h2
      cases h; exact ⟨p0, v, hv, Or.inr ⟨h2, Or.inl rfl⟩⟩
    rw [if_neg h1, Py.bind_eq_ok] at h
    obtain ⟨st, -, h⟩ := h
    have bnd : ∀ (bound : Option K) (out : K → K → Bool) p hits r', halleyBound o bound out p0 v.1 p hits = .ok (.inl r') →
        |v.1| < yt ∧ r' = p0 := by
      intro bound out p hits r' hb
      simp only [halleyBound, hyt] at hb
      cases bound with
      | none => cases hb
      | some l =>
        simp only at hb
        split_ifs at hb with c1 c2 c3
        · cases hb; exact ⟨c3, c2.1.symm⟩
        all_goals cases hb
    simp only [Py.bind_eq_ok] at h
    obtain ⟨lo, hlo, h⟩ := h
    cases lo with
    | inl r' => cases h; obtain ⟨b1, rfl⟩ := bnd _ _ _ _ _ hlo; exact ⟨r, v, hv, Or.inr ⟨b1, Or.inl rfl⟩⟩
    | inr lo =>
      simp only [Py.bind_eq_ok] at h
      obtain ⟨hi, hhi, h⟩ := h
      cases hi with
      | inl r' => cases h; obtain ⟨b1, rfl⟩ := bnd _ _ _ _ _ hhi; exact ⟨r, v, hv, Or.inr ⟨b1, Or.inl rfl⟩⟩
      | inr hi =>
        simp only at h
        by_cases hd : ¬ st.2 = true ∧ halleyDone o p0 v.1 hi.1 = true
        · rw [if_pos hd] at h
          cases h
          have hd := hd.2
          simp only [halleyDone, hyt] at hd
          refine ⟨p0, v, hv, Or.inr ?_⟩
          cases hx : o.xtol with
          | none =>
            simp only [hx, decide_eq_true_eq] at hd
            refine ⟨hd, ?_⟩
            cases o.require_eval
            · right; exact ⟨rfl, by simp⟩
            · left; rfl
          | some xt =>
            simp only [hx, decide_eq_true_eq] at hd
            refine ⟨hd.2, ?_⟩
            cases o.require_eval
            · right; exact ⟨rfl, by simpa using hd.1⟩
            · left; rfl
        · rw [if_neg hd] at h
          exact ih _ _ _ _ _ _ h

/-- C27: with a `ytol`, a point returned by `halley` is an exact zero, or comes from an evaluated point `q` with `|f q| < ytol`: it is
`q` itself, or (without `require_eval`) the next point, within the requested `xtol` of `q`. -/
theorem C27_halley_post (f : K → Py (K × K × K)) (o : HalleyOpts K) (x0 yt : K) (maxiter : ℕ) (hyt : o.ytol = some yt) (r : K)
    (h : halley f o x0 maxiter = .ok r) : ∃ q v, f q = .ok v ∧ ((v.1 = 0 ∧ r = q) ∨
      (|v.1| < yt ∧ (r = q ∨ o.require_eval = false ∧ ∀ xt ∈ o.xtol, |r - q| < |xt * r|))) := by
  simp only [halley] at h
  split_ifs at h
  exact halleyLoop_post f o yt hyt _ _ _ _ _ _ _ h

/-! ### fixed_point -/

theorem fixedLoop_spec (norm2 : List K → K) (f : List K → Py (List K)) (xtol ytol : Option K) (damping : K) (rp : Bool) (maxiter : ℕ)
    (n : ℕ) : ∀ s t : FixedSt K, (∃ y d, f y = .ok s.fcur ∧ s.x = List.zipWith (fun xi fi => xi - fi * d) y s.fcur ∧ (d = 1 ∨ d = damping)) →
    s.iteration ≤ max 1 maxiter → fixedLoop norm2 f xtol ytol damping rp maxiter n s = .ok t →
    (∃ y d, f y = .ok t.fcur ∧ t.x = List.zipWith (fun xi fi => xi - fi * d) y t.fcur ∧ (d = 1 ∨ d = damping)) ∧
      t.iteration ≤ max 1 maxiter := by
  induction n with
  | zero => intro s t hs hi h; cases h; exact ⟨hs, hi⟩
  | succ n ih =>
    intro s t hs hi h
    rw [fixedLoop] at h
    split_ifs at h with c1
    · rw [Py.bind_eq_ok] at h
      obtain ⟨fcur, hf, h⟩ := h
      simp only at h
      split_ifs at h
      · cases h
        exact ⟨⟨s.x, damping, hf, rfl, Or.inr rfl⟩, by simp only; omega⟩
      · exact ih _ t ⟨s.x, damping, hf, rfl, Or.inr rfl⟩ (by simp only; omega) h
    · cases h; exact ⟨hs, hi⟩

/-- C28: a result `(x, n)` of `fixed_point` is one (damped) step `x = y - d f(y)` from a point `y` whose residual meets every requested
tolerance (`norm2 f(y) ≤ xtol`, `Σ|f(y)| ≤ ytol`), or is the start itself (`n = 0`) with `Σ|f| < ytol`; and `n ≤ max 1 maxiter`. -/
theorem C28_fixed_point (norm2 : List K → K) (f : List K → Py (List K)) (x0 : List K) (xtol ytol : Option K) (maxiter : ℕ) (damping : K)
    (rp : Bool) (x : List K) (n : ℕ) (h : fixed_point norm2 f x0 xtol ytol maxiter damping rp = .ok (x, n)) :
    (n = 0 ∧ x = x0 ∧ xtol = none ∧ ∃ v, f x0 = .ok v ∧ ∃ yt ∈ ytol, absSum v < yt) ∨
    (n ≤ max 1 maxiter ∧ ∃ y d v, f y = .ok v ∧ x = List.zipWith (fun xi fi => xi - fi * d) y v ∧ (d = 1 ∨ d = damping) ∧
      (∀ xt ∈ xtol, norm2 v ≤ xt) ∧ (∀ yt ∈ ytol, absSum v ≤ yt)) := by
  rw [fixed_point, Py.bind_eq_ok] at h
  obtain ⟨v, hv, h⟩ := h
  simp only at h
  split_ifs at h with c1
  · cases h
    obtain ⟨c1, yt, c2, c3⟩ := c1
    exact Or.inl ⟨rfl, rfl, c1, v, hv, yt, c2, c3⟩
  · rw [Py.bind_eq_ok] at h
    obtain ⟨t, ht, h⟩ := h
    split_ifs at h with c2 c3
    cases h
    obtain ⟨⟨y, d, y1, y2, y3⟩, hi⟩ := fixedLoop_spec norm2 f xtol ytol damping rp maxiter _ _ t
      ⟨x0, 1, hv, by simp, Or.inl rfl⟩ (by simp) ht
    refine Or.inr ⟨hi, y, d, t.fcur, y1, y2, y3, fun xt hx => ?_, fun yt hy => ?_⟩
    · by_contra hc; exact c2 ⟨xt, hx, not_le.mp hc⟩
    · by_contra hc; exact c3 ⟨yt, hy, not_le.mp hc⟩

theorem fixedLoop_err (norm2 : List K → K) (g : List K → List K) (xtol ytol : Option K) (damping : K) (maxiter : ℕ)
    (n : ℕ) : ∀ s : FixedSt K, ∃ t, fixedLoop norm2 (fun x => .ok (g x)) xtol ytol damping false maxiter n s = .ok t := by
  induction n with
  | zero => intro s; exact ⟨_, rfl⟩
  | succ n ih =>
    intro s
    rw [fixedLoop]
    by_cases c : s.iteration < maxiter
    · rw [if_pos c]
      simp only [Py.ok_bind, Bool.false_eq_true, and_false, if_false]
      split_ifs
      · exact ⟨_, rfl⟩
      · exact ih _
    · rw [if_neg c]; exact ⟨_, rfl⟩

/-- C28: exhaustion. On a total function without `require_progress`, `fixed_point` returns or raises `UnconvergedError`, nothing else. -/
theorem C28_fixed_point_errors (norm2 : List K → K) (g : List K → List K) (x0 : List K) (xtol ytol : Option K) (maxiter : ℕ) (damping : K)
    (e : PyErr) (h : fixed_point norm2 (fun x => .ok (g x)) x0 xtol ytol maxiter damping false = .error e) : e = .unconvergedError := by
  simp only [fixed_point, Py.ok_bind] at h
  split_ifs at h
  obtain ⟨t, ht⟩ := fixedLoop_err norm2 g xtol ytol damping maxiter (maxiter + 1)
    ⟨List.zipWith (fun xi fi => xi - fi) x0 (g x0), g x0, absSum (g x0), 1⟩
  rw [ht, Py.ok_bind] at h
  split_ifs at h <;> cases h <;> rfl

/-- C28 (finding): with neither tolerance given, `fixed_point` always reports success after `maxiter` steps, here on `f(x) = -x` (the
iteration doubles `x` forever). -/
theorem C28_fixed_point_no_tolerance : fixed_point (fun _ => (0 : ℚ)) (fun x => .ok (x.map (fun v => -v))) [1] none none 5 1 false =
    .ok ([32], 5) := by decide +kernel

example : fixed_point (fun _ => (0 : ℚ)) (fun x => .ok (x.map (fun v => v / 2 - 1))) [1, 5] none (some (1/10)) 20 1 false =
    .ok ([127/64, 131/64], 6) := by decide +kernel

end Generic
end Verif
