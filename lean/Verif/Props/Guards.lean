import Verif.Model.Guards
import Verif.Props.Bracketing
import Mathlib.Tactic

/-! C122: oscillation checks, damped and limited first steps, the one-sided secant solver and the closeness assertions. -/

namespace Verif.Guards
open Verif

section Generic
variable {K : Type _} [Field K] [LinearOrder K]

/-! ### Oscillation -/

/-- the values seen so far of one sign, newest first -/
def positives (h : List (K × K)) : List K := (h.map Prod.snd).filter (0 < ·)
/-- the values seen so far of the other sign, newest first -/
def negatives (h : List (K × K)) : List K := (h.map Prod.snd).filter (· < 0)

/-- the last two values of a sign differ by less than the minimum progress, relative to the last -/
def Small (m : K) (l : List K) : Prop := ∃ y y' t, l = y :: y' :: t ∧ |y - y'| < m * |y|

/-- what the checker calls oscillating: the newest point is not a root, both signs were seen twice, and on one side (or on both) there was little progress, unless a good enough value was seen -/
def Stalled (o : OscOpts K) (h : List (K × K)) : Prop :=
  (∃ x y t, h = (x, y) :: t ∧ y ≠ 0) ∧ 2 ≤ (positives h).length ∧ 2 ≤ (negatives h).length ∧
  (if o.both_sides then Small o.minimum_progress (positives h) ∧ Small o.minimum_progress (negatives h) else Small o.minimum_progress (positives h) ∨ Small o.minimum_progress (negatives h)) ∧
  (∀ g ∈ o.good_err, ∀ p ∈ (positives h).head?, ∀ n ∈ (negatives h).head?, g ≤ |n| ∧ g ≤ |p|)

/-- the stored points after the history `h` (newest first) -/
def stateOf (h : List (K × K)) : Osc K :=
  ⟨(h.filter fun p => 0 < p.2).map Prod.fst, positives h, (h.filter fun p => p.2 < 0).map Prod.fst, negatives h⟩

lemma positives_eq (h : List (K × K)) : positives h = (h.filter fun p => 0 < p.2).map Prod.snd := by
  unfold positives; rw [List.filter_map]; rfl
lemma negatives_eq (h : List (K × K)) : negatives h = (h.filter fun p => p.2 < 0).map Prod.snd := by
  unfold negatives; rw [List.filter_map]; rfl

lemma push_stateOf (h : List (K × K)) (x : K) {y : K} (hy : y ≠ 0) : (stateOf h).push x y = stateOf ((x, y) :: h) := by
  unfold Osc.push stateOf positives negatives
  rcases lt_or_gt_of_ne hy with c | c
  · simp [c, not_lt.2 c.le]
  · simp [c, not_lt.2 c.le]

lemma stateOf_zero (h : List (K × K)) (x : K) : stateOf ((x, 0) :: h) = stateOf h := by
  simp [stateOf, positives, negatives]

variable [IsStrictOrderedRing K]

lemma gain_small {l : List K} {m : K} (h0 : ∀ y ∈ l, y ≠ 0) (h2 : 2 ≤ l.length) : ∃ g, gain l = .ok g ∧ (g < m ↔ Small m l) := by
  match l, h2 with
  | y :: y' :: t, _ =>
    have hy : y ≠ 0 := h0 y (by simp)
    refine ⟨|(y - y') / y|, ?_, ?_⟩
    · rw [gain, pdiv_ok hy, Py.ok_bind]; rfl
    · rw [abs_div, div_lt_iff₀ (abs_pos.2 hy)]
      constructor
      · intro h; exact ⟨y, y', t, rfl, h⟩
      · rintro ⟨a, b, c, h, hh⟩
        simp only [List.cons.injEq] at h
        obtain ⟨rfl, rfl, rfl⟩ := h
        exact hh

/-- one call -/
lemma is_oscillating_spec (o : OscOpts K) (h : List (K × K)) (x y : K) :
    ∃ b, is_oscillating o (stateOf h) x y = .ok (b, stateOf ((x, y) :: h)) ∧ (b = true ↔ Stalled o ((x, y) :: h)) := by
  by_cases hy : y = 0
  · subst hy
    refine ⟨false, by rw [is_oscillating, if_pos rfl, stateOf_zero], ?_⟩
    simp only [Bool.false_eq_true, false_iff]
    rintro ⟨⟨a, b, c, h, hb⟩, -⟩
    simp only [List.cons.injEq, Prod.mk.injEq] at h
    exact hb h.1.2.symm
  have hst : ∃ a b c, (x, y) :: h = (a, b) :: c ∧ b ≠ 0 := ⟨x, y, h, rfl, hy⟩
  have lp : (stateOf ((x, y) :: h)).xs_pos.length = (positives ((x, y) :: h)).length := by rw [positives_eq]; simp [stateOf]
  have ln : (stateOf ((x, y) :: h)).xs_neg.length = (negatives ((x, y) :: h)).length := by rw [negatives_eq]; simp [stateOf]
  unfold is_oscillating
  rw [if_neg hy, push_stateOf h x hy]
  generalize (x, y) :: h = H at *
  dsimp only
  rw [lp, ln]
  by_cases c : (positives H).length < 2 ∨ (negatives H).length < 2
  · rw [if_pos c]
    refine ⟨false, rfl, ?_⟩
    simp only [Bool.false_eq_true, false_iff]
    rintro ⟨-, h1, h2, -⟩
    omega
  rw [if_neg c]
  push Not at c
  have hp0 : ∀ v ∈ positives H, v ≠ 0 := fun v hv => (ne_of_gt (by simpa using (List.mem_filter.1 hv).2))
  have hn0 : ∀ v ∈ negatives H, v ≠ 0 := fun v hv => (ne_of_lt (by simpa using (List.mem_filter.1 hv).2))
  obtain ⟨gn, hgn, en⟩ := gain_small (m := o.minimum_progress) hn0 c.2
  obtain ⟨gp, hgp, ep⟩ := gain_small (m := o.minimum_progress) hp0 c.1
  rw [show (stateOf H).ys_neg = negatives H from rfl, show (stateOf H).ys_pos = positives H from rfl, hgn, Py.ok_bind, hgp, Py.ok_bind]
  have hb : ∃ b, (if o.both_sides then decide (gp < o.minimum_progress) && decide (gn < o.minimum_progress)
        else decide (gp < o.minimum_progress) || decide (gn < o.minimum_progress)) = b ∧ (b = true ↔ (if o.both_sides then Small o.minimum_progress (positives H) ∧ Small o.minimum_progress (negatives H)
          else Small o.minimum_progress (positives H) ∨ Small o.minimum_progress (negatives H))) := by
    refine ⟨_, rfl, ?_⟩
    cases o.both_sides <;> simp [en, ep]
  obtain ⟨b, hbe, hb⟩ := hb
  rw [hbe]
  have ans : ∃ r, oscAnswer o (stateOf H) b = .ok r ∧ (r = true ↔ b = true ∧ ∀ g ∈ o.good_err, ∀ p ∈ (positives H).head?, ∀ n ∈ (negatives H).head?, g ≤ |n| ∧ g ≤ |p|) := by
    unfold oscAnswer
    rw [show (stateOf H).ys_neg = negatives H from rfl, show (stateOf H).ys_pos = positives H from rfl]
    match hN : negatives H, hP : positives H, c with
    | n :: N, p :: P, _ =>
      match b, hg : o.good_err with
      | false, _ => exact ⟨false, rfl, by simp⟩
      | true, none => exact ⟨true, rfl, by simp⟩
      | true, some g =>
        refine ⟨_, rfl, ?_⟩
        simp
  obtain ⟨r, hr, hri⟩ := ans
  rw [hr, Py.ok_bind]
  refine ⟨r, rfl, ?_⟩
  rw [hri, hb]
  exact ⟨fun h => ⟨hst, c.1, c.2, h.1, h.2⟩, fun h => ⟨h.2.2.2.1, h.2.2.2.2⟩⟩

/-- the answers to successive calls with these points -/
def answers (o : OscOpts K) : Osc K → List (K × K) → Py (List Bool)
  | _, [] => .ok []
  | s, p :: l => do
    let r ← is_oscillating o s p.1 p.2
    let rest ← answers o r.2 l
    return r.1 :: rest

/-- C122: a checker given any sequence of points never raises, and answers each one as the history up to it says. -/
theorem C122_oscillation (o : OscOpts K) (obs : List (K × K)) :
    ∃ bs, answers o Osc.empty obs = .ok bs ∧ bs.length = obs.length ∧ ∀ i, i < obs.length → (bs[i]? = some true ↔ Stalled o (obs.take (i + 1)).reverse) := by
  have gen : ∀ (obs : List (K × K)) (h : List (K × K)), ∃ bs, answers o (stateOf h) obs = .ok bs ∧ bs.length = obs.length ∧ ∀ i, i < obs.length → (bs[i]? = some true ↔ Stalled o ((obs.take (i + 1)).reverse ++ h)) := by
    intro obs
    induction obs with
    | nil => intro h; exact ⟨[], rfl, rfl, fun i hi => by simp at hi⟩
    | cons p l ih =>
      intro h
      obtain ⟨b, hb, hbi⟩ := is_oscillating_spec o h p.1 p.2
      obtain ⟨bs, h1, h2, h3⟩ := ih (p :: h)
      refine ⟨b :: bs, ?_, by simp [h2], ?_⟩
      · rw [answers, hb, Py.ok_bind]
        dsimp only
        rw [h1, Py.ok_bind]; rfl
      · intro i hi
        match i with
        | 0 => simpa using hbi
        | i + 1 =>
          rw [List.getElem?_cons_succ, h3 i (by simpa using hi)]
          simp
  have := gen obs []
  simp only [List.append_nil] at this
  exact this

/-- C122: a solver whose values shrink on each side by the factor 1 + minimum_progress every time is never called oscillating; (finding) nor is one whose values grow by 1/(1 − minimum_progress). -/
theorem C122_oscillation_never (o : OscOpts K) (hm : 0 ≤ o.minimum_progress) (h : List (K × K))
    (hh : ((positives h).IsChain (fun new old => (1 + o.minimum_progress) * |new| ≤ |old|) ∧ (negatives h).IsChain (fun new old => (1 + o.minimum_progress) * |new| ≤ |old|)) ∨
      ((positives h).IsChain (fun new old => |old| ≤ (1 - o.minimum_progress) * |new|) ∧ (negatives h).IsChain (fun new old => |old| ≤ (1 - o.minimum_progress) * |new|))) : ¬ Stalled o h := by
  have key : ∀ l : List K, l.IsChain (fun new old => (1 + o.minimum_progress) * |new| ≤ |old|) ∨ l.IsChain (fun new old => |old| ≤ (1 - o.minimum_progress) * |new|) → ¬ Small o.minimum_progress l := by
    rintro l hl ⟨y, y', t, rfl, hs⟩
    have t1 : |y| - |y'| ≤ |y - y'| := abs_sub_abs_le_abs_sub y y'
    have t2 : |y'| - |y| ≤ |y - y'| := by rw [abs_sub_comm]; exact abs_sub_abs_le_abs_sub y' y
    rcases hl with hl | hl
    · have := (List.isChain_cons_cons.1 hl).1
      nlinarith
    · have := (List.isChain_cons_cons.1 hl).1
      nlinarith
  rintro ⟨-, -, -, hs, -⟩
  have hp : ¬ Small o.minimum_progress (positives h) := key _ (hh.imp And.left And.left)
  have hn : ¬ Small o.minimum_progress (negatives h) := key _ (hh.imp And.right And.right)
  by_cases c : o.both_sides = true
  · rw [if_pos c] at hs; exact hp hs.1
  · rw [if_neg c] at hs; exact hs.elim hp hn

/-- alternating between two values is found at the fourth call; tenfold growth on both sides is not -/
example : Stalled (⟨3/10, false, none⟩ : OscOpts ℚ) [(4, -1), (3, 1), (2, -1), (1, 1)] ∧ ¬ Stalled (⟨3/10, false, none⟩ : OscOpts ℚ) [(4, -1000), (3, 100), (2, -10), (1, 1)] := by
  constructor
  · have p : positives [((4 : ℚ), (-1 : ℚ)), (3, 1), (2, -1), (1, 1)] = [1, 1] := by decide +kernel
    have n : negatives [((4 : ℚ), (-1 : ℚ)), (3, 1), (2, -1), (1, 1)] = [-1, -1] := by decide +kernel
    refine ⟨⟨_, _, _, rfl, by norm_num⟩, by rw [p]; decide, by rw [n]; decide, ?_, by simp⟩
    simp only [Bool.false_eq_true, if_false]
    exact .inl ⟨1, 1, [], p, by norm_num⟩
  · have p : positives [((4 : ℚ), (-1000 : ℚ)), (3, 100), (2, -10), (1, 1)] = [100, 1] := by decide +kernel
    have n : negatives [((4 : ℚ), (-1000 : ℚ)), (3, 100), (2, -10), (1, 1)] = [-1000, -10] := by decide +kernel
    apply C122_oscillation_never _ (by norm_num)
    right
    rw [p, n]
    norm_num

/-- C122: a wrapped function raises what the function raises; otherwise it returns exactly the function's value, except that it raises OscillationError when the history with the new point stalls. -/
theorem C122_wrap (o : OscOpts K) (f : K → Py K) (h : List (K × K)) (x : K) :
    (∀ e, f x = .error e → wrapped o f (stateOf h) x = (.error e, stateOf h)) ∧
    (∀ y, f x = .ok y → ¬ Stalled o ((x, y) :: h) → wrapped o f (stateOf h) x = (.ok y, stateOf ((x, y) :: h))) ∧
    (∀ y, f x = .ok y → Stalled o ((x, y) :: h) → wrapped o f (stateOf h) x = (.error .oscillationError, stateOf ((x, y) :: h))) := by
  refine ⟨fun e he => by rw [wrapped, he], fun y hy hs => ?_, fun y hy hs => ?_⟩
  all_goals
    obtain ⟨b, hb, hbi⟩ := is_oscillating_spec o h x y
    rw [wrapped, hy]
    dsimp only
    rw [hb]
  · have : b = false := by rw [← hbi, Bool.not_eq_true] at hs; exact hs
    rw [this]
  · rw [hbi.2 hs]

/-! ### First steps -/

omit [IsStrictOrderedRing K] in
/-- C122: the function made by `make_damp_initial` damps exactly its first `steps` calls, on numbers and on lists alike. -/
theorem C122_damp_initial (damping : K) (steps : ℤ) (calls : List (K × K)) (callsL : List (List K × List K)) (i : ℕ) :
    (∀ x s, calls[i]? = some (x, s) → (dampCalls damping steps calls)[i]? = some (if (i : ℤ) < steps then x + s * damping else x + s)) ∧
    (∀ x s, callsL[i]? = some (x, s) → (dampCallsL damping steps callsL)[i]? = some (if (i : ℤ) < steps then List.zipWith (fun a b => a + b * damping) x s else List.zipWith (fun a b => a + b) x s)) := by
  constructor
  · induction calls generalizing i steps with
    | nil => intro x s h; simp at h
    | cons p l ih =>
      intro x s h
      rw [dampCalls]
      match i with
      | 0 =>
        simp only [List.getElem?_cons_zero, Option.some.injEq] at h ⊢
        subst h
        unfold dampCall
        split_ifs with c1 c2 c2
        · simp at c2; omega
        · rfl
        · rfl
        · simp at c2; omega
      | i + 1 =>
        simp only [List.getElem?_cons_succ] at h ⊢
        rw [ih _ i x s h]
        congr 1
        unfold dampCall
        push_cast
        by_cases c : steps ≤ 0
        · rw [if_pos c, if_neg (by omega), if_neg (by omega)]
        · rw [if_neg c]
          exact if_congr (by constructor <;> intro _ <;> omega) rfl rfl
  · induction callsL generalizing i steps with
    | nil => intro x s h; simp at h
    | cons p l ih =>
      intro x s h
      rw [dampCallsL]
      match i with
      | 0 =>
        simp only [List.getElem?_cons_zero, Option.some.injEq] at h ⊢
        subst h
        unfold dampCallL
        split_ifs with c1 c2 c2
        · simp at c2; omega
        · rfl
        · rfl
        · simp at c2; omega
      | i + 1 =>
        simp only [List.getElem?_cons_succ] at h ⊢
        rw [ih _ i x s h]
        congr 1
        unfold dampCallL
        push_cast
        by_cases c : steps ≤ 0
        · rw [if_pos c, if_neg (by omega), if_neg (by omega)]
        · rw [if_neg c]
          exact if_congr (by constructor <;> intro _ <;> omega) rfl rfl

/-- C122: a limited step is the step itself if it is short enough and otherwise has the same direction and the length `m`. -/
theorem C122_limited {m : K} (hm : 0 ≤ m) (x s : K) :
    |limited m x s - x| ≤ m ∧ (|s| ≤ m → limited m x s = x + s) ∧ (m < |s| → |limited m x s - x| = m) ∧ 0 ≤ (limited m x s - x) * s ∧ |limited m x s - x| ≤ |s| := by
  unfold limited copysign
  rw [abs_of_nonneg hm]
  split_ifs with c1 c2
  · rw [show x + -m - x = -m by ring, abs_neg, abs_of_nonneg hm]
    exact ⟨le_rfl, fun h => absurd c1 (not_lt.2 h), fun _ => rfl, by nlinarith, c1.le⟩
  · rw [show x + m - x = m by ring, abs_of_nonneg hm]
    exact ⟨le_rfl, fun h => absurd c1 (not_lt.2 h), fun _ => rfl, mul_nonneg hm (not_lt.1 c2), c1.le⟩
  · rw [show x + s - x = s by ring]
    exact ⟨not_lt.1 c1, fun _ => rfl, fun h => absurd h c1, mul_self_nonneg s, le_rfl⟩

omit [IsStrictOrderedRing K] in
/-- C122: the function made by `make_max_step_initial` limits exactly its first `steps` calls. -/
theorem C122_max_step_initial (m : K) (steps : ℤ) (calls : List (K × K)) (i : ℕ) (x s : K) (h : calls[i]? = some (x, s)) :
    (maxStepCalls m steps calls)[i]? = some (if (i : ℤ) < steps then limited m x s else x + s) := by
  induction calls generalizing i steps with
  | nil => simp at h
  | cons p l ih =>
    rw [maxStepCalls]
    match i with
    | 0 =>
      simp only [List.getElem?_cons_zero, Option.some.injEq] at h ⊢
      subst h
      unfold maxStepCall
      split_ifs with c1 c2 c2
      · simp at c2; omega
      · rfl
      · rfl
      · simp at c2; omega
    | i + 1 =>
      simp only [List.getElem?_cons_succ] at h ⊢
      rw [ih _ i h]
      congr 1
      unfold maxStepCall
      push_cast
      by_cases c : steps ≤ 0
      · rw [if_pos c, if_neg (by omega), if_neg (by omega)]
      · rw [if_neg c]
        exact if_congr (by constructor <;> intro _ <;> omega) rfl rfl

omit [IsStrictOrderedRing K] in
/-- C122: on lists each component is limited by its own entry of `max_step`, or by the one number given. -/
theorem C122_limited_list (m : ℕ → Option K) (x step : List K) (hs : x.length ≤ step.length) (hm : ∀ i < x.length, ∃ v, m i = some v) :
    ∃ r, limitedL m x step = .ok r ∧ r.length = x.length ∧ ∀ i < x.length, ∀ mi ∈ m i, r.getD i 0 = limited mi (x.getD i 0) (step.getD i 0) := by
  refine ⟨_, Verif.mapM_range_ok x.length _ (fun i => limited ((m i).getD 0) (x.getD i 0) (step.getD i 0)) ?_, by simp, ?_⟩
  · intro i hi
    obtain ⟨v, hv⟩ := hm i hi
    rw [List.getElem?_eq_getElem (hi.trans_le hs), hv]
    simp [List.getD, hi.trans_le hs]
  · intro i hi mi hmi
    rw [Option.mem_def] at hmi
    simp [List.getD, hi, hmi]

example : limitedL (fun _ => some (1 : ℚ)) [0, 5] [3, -1/2] = .ok [1, 9/2] := by
  obtain ⟨r, h, hl, hr⟩ := C122_limited_list (fun _ => some (1 : ℚ)) [0, 5] [3, -1/2] (by simp) (fun i _ => ⟨1, rfl⟩)
  rw [h]
  match r, hl with
  | [a, b], _ =>
    have h0 := hr 0 (by simp) 1 rfl
    have h1 := hr 1 (by simp) 1 rfl
    simp [List.getD] at h0 h1
    rw [h0, h1]
    norm_num [limited, copysign, abs_of_pos, abs_of_neg]

/-! ### Closeness -/

omit [IsStrictOrderedRing K] in
lemma assert_close_iff {a b rtol atol : K} (hr : 0 ≤ rtol) (ha : 0 ≤ atol) :
    assert_close a b rtol atol = .ok () ↔ a = b ∨ |a - b| ≤ rtol * |a| ∨ |a - b| ≤ rtol * |b| ∨ |a - b| ≤ atol ∨ |a - b| ≤ atol + rtol * |b| := by
  unfold assert_close Seq.isclose allclose
  rw [if_neg (by rintro (h | h) <;> exact absurd h (not_lt.2 ‹_›))]
  by_cases c : a = b
  · rw [if_pos c]; simp [c]
  rw [if_neg c]
  dsimp only
  by_cases c2 : (|a - b| ≤ rtol * |b| ∨ |a - b| ≤ rtol * |a|) ∨ |a - b| ≤ atol
  · rw [decide_eq_true c2]
    simp only [true_iff]
    tauto
  · rw [decide_eq_false c2]
    dsimp only
    by_cases c3 : |a - b| ≤ atol + rtol * |b|
    · simp [c3]
    · simp only [c3, decide_false, Bool.false_eq_true, if_false, reduceCtorEq, false_iff]
      tauto

/-- C122: with one of the two tolerances zero (the default has `atol = 0`) `assert_close` passes exactly when the numbers differ by at most `max (rtol · max |a| |b|) atol`, in either order. -/
theorem C122_close {a b rtol atol : K} (hr : 0 ≤ rtol) (ha : 0 ≤ atol) (hz : rtol = 0 ∨ atol = 0) :
    (assert_close a b rtol atol = .ok () ↔ |a - b| ≤ max (rtol * max |a| |b|) atol) ∧ (assert_close a b rtol atol = .ok () ↔ assert_close b a rtol atol = .ok ()) := by
  have main : ∀ a b : K, assert_close a b rtol atol = .ok () ↔ |a - b| ≤ max (rtol * max |a| |b|) atol := by
    intro a b
    rw [assert_close_iff hr ha, mul_max_of_nonneg _ _ hr, le_max_iff, le_max_iff]
    constructor
    · rintro (rfl | h | h | h | h)
      · right; rw [sub_self, abs_zero]; exact ha
      · exact .inl (.inl h)
      · exact .inl (.inr h)
      · exact .inr h
      · rcases hz with rfl | rfl
        · right; simpa using h
        · left; right; simpa using h
    · rintro ((h | h) | h)
      · exact .inr (.inl h)
      · exact .inr (.inr (.inl h))
      · exact .inr (.inr (.inr (.inl h)))
  refine ⟨main a b, ?_⟩
  rw [main a b, main b a, abs_sub_comm, max_comm |a| |b|]

/-- C122 (finding): with both tolerances positive the order of the arguments matters. -/
theorem C122_close_order : assert_close (0 : ℚ) 1 (1/2) (1/2) = .ok () ∧ assert_close (1 : ℚ) 0 (1/2) (1/2) = .error .exception := by
  rw [assert_close_iff (by norm_num) (by norm_num)]
  refine ⟨by norm_num, ?_⟩
  have h : ¬ assert_close (1 : ℚ) 0 (1/2) (1/2) = .ok () := by rw [assert_close_iff (by norm_num) (by norm_num)]; norm_num
  unfold assert_close at h ⊢
  split at h
  · exact absurd rfl h
  · split_ifs at h ⊢
    · exact h rfl
    · rfl

omit [IsStrictOrderedRing K] in
lemma closeLoop_iff {rtol atol : K} : ∀ a b : List K, a.length = b.length → (closeLoop rtol atol a b = .ok () ↔ ∀ (i : ℕ) x y, a[i]? = some x → b[i]? = some y → assert_close x y rtol atol = .ok ()) := by
  intro a
  induction a with
  | nil => intro b _; simp [closeLoop]
  | cons x A ih =>
    intro b hb
    match b, hb with
    | y :: B, hb =>
      rw [closeLoop]
      constructor
      · intro h
        obtain ⟨u, h1, h2⟩ := Py.bind_eq_ok.1 h
        intro i p q hp hq
        match i with
        | 0 => simp only [List.getElem?_cons_zero, Option.some.injEq] at hp hq; subst hp hq; exact h1
        | i + 1 => simp only [List.getElem?_cons_succ] at hp hq; exact (ih B (by simpa using hb)).1 h2 i p q hp hq
      · intro h
        rw [h 0 x y rfl rfl, Py.ok_bind]
        exact (ih B (by simpa using hb)).2 fun i p q hp hq => h (i + 1) p q (by simpa using hp) (by simpa using hq)

omit [IsStrictOrderedRing K] in
/-- C122: `assert_close1d` passes exactly when the lists have one length and every pair of entries passes `assert_close`; different lengths raise ValueError. -/
theorem C122_close1d {a b : List K} {rtol atol : K} : (a.length ≠ b.length → assert_close1d a b rtol atol = .error .valueError) ∧
    (assert_close1d a b rtol atol = .ok () ↔ a.length = b.length ∧ ∀ (i : ℕ) x y, a[i]? = some x → b[i]? = some y → assert_close x y rtol atol = .ok ()) := by
  unfold assert_close1d
  constructor
  · intro h; rw [if_pos h]
  · by_cases c : a.length = b.length
    · rw [if_neg (by simpa using c), closeLoop_iff a b c]; simp [c]
    · rw [if_pos c]; simp [c]

/-- two tables of one shape whose entries are all close -/
def Close2 (a b : List (List K)) (rtol atol : K) : Prop :=
  List.Forall₂ (List.Forall₂ fun x y => |x - y| ≤ max (rtol * max |x| |y|) atol) a b

lemma good_iff {a b rtol atol : K} (hr : 0 ≤ rtol) (ha : 0 ≤ atol) : good a b rtol atol = true ↔ |a - b| ≤ max (rtol * max |a| |b|) atol := by
  unfold good Seq.isclose
  rw [if_neg (by rintro (h | h) <;> exact absurd h (not_lt.2 ‹_›))]
  by_cases c : a = b
  · rw [if_pos c]
    simp only [true_iff]
    rw [c, sub_self, abs_zero]; exact le_max_of_le_right ha
  · rw [if_neg c]
    dsimp only
    rw [decide_eq_true_eq, mul_max_of_nonneg _ _ hr, le_max_iff, le_max_iff]
    tauto

/-- C122: with non-negative tolerances of which one is zero, `assert_close2d` passes exactly on tables of one shape that are close entry by entry. -/
theorem C122_close2d {a b : List (List K)} {rtol atol : K} (hr : 0 ≤ rtol) (ha : 0 ≤ atol) (hz : rtol = 0 ∨ atol = 0) : assert_close2d a b rtol atol = .ok () ↔ Close2 a b rtol atol := by
  have allc : ∀ x y : K, allclose x y rtol atol = true → good x y rtol atol = true := by
    intro x y h
    rw [good_iff hr ha, mul_max_of_nonneg _ _ hr, le_max_iff, le_max_iff]
    unfold allclose at h
    rw [decide_eq_true_eq] at h
    rcases hz with rfl | rfl
    · right; simpa using h
    · left; right; simpa using h
  have el : ∀ x y : List K, x.length = y.length → (elems2d rtol atol x y = .ok false ∧ List.Forall₂ (fun x y => |x - y| ≤ max (rtol * max |x| |y|) atol) x y) ∨
      (elems2d rtol atol x y = .error .exception ∧ ¬ List.Forall₂ (fun x y => |x - y| ≤ max (rtol * max |x| |y|) atol) x y) := by
    intro x
    induction x with
    | nil => intro y hy; match y, hy with | [], _ => exact .inl ⟨rfl, .nil⟩
    | cons p x ih =>
      intro y hy
      match y, hy with
      | q :: y, hy =>
        rw [elems2d, List.forall₂_cons]
        by_cases c : good p q rtol atol = true
        · rw [if_pos c]
          rcases ih y (by simpa using hy) with h | h
          · exact .inl ⟨h.1, (good_iff hr ha).1 c, h.2⟩
          · exact .inr ⟨h.1, fun hh => h.2 hh.2⟩
        · rw [if_neg c, if_neg (fun h => c (allc _ _ h))]
          exact .inr ⟨rfl, fun hh => c ((good_iff hr ha).2 hh.1)⟩
  have rows : ∀ a b : List (List K), a.length = b.length → (rows2d rtol atol a b = .ok () ↔ Close2 a b rtol atol) := by
    intro a
    induction a with
    | nil => intro b hb; match b, hb with | [], _ => exact ⟨fun _ => .nil, fun _ => rfl⟩
    | cons x A ih =>
      intro b hb
      match b, hb with
      | y :: B, hb =>
        rw [rows2d]
        unfold Close2
        rw [List.forall₂_cons]
        by_cases c : x.length = y.length
        · rw [if_neg (by simpa using c)]
          rcases el x y c with h | h
          · rw [h.1, Py.ok_bind]
            simp only [Bool.false_eq_true, if_false]
            rw [ih B (by simpa using hb)]
            exact ⟨fun hh => ⟨h.2, hh⟩, fun hh => hh.2⟩
          · rw [h.1, Py.error_bind]
            simp only [reduceCtorEq, false_iff]
            exact fun hh => h.2 hh.1
        · rw [if_pos c]
          simp only [reduceCtorEq, false_iff]
          exact fun hh => c hh.1.length_eq
  unfold assert_close2d
  by_cases c : a.length = b.length
  · rw [if_neg (by simpa using c)]; exact rows a b c
  · rw [if_pos c]
    simp only [reduceCtorEq, false_iff]
    exact fun hh => c hh.length_eq

/-- C122 (finding): with both tolerances positive `assert_close2d` stops at the first pair that only `assert_allclose` accepts and passes whatever follows; with a negative tolerance, where
`assert_close` rejects unequal numbers, it passes every pair of tables of one shape. -/
theorem C122_close2d_stops (z : ℚ) (A B : List (List ℚ)) (hAB : A.length = B.length) : assert_close2d ([0, 0] :: A) ([1, z] :: B) (1/2) (1/2) = .ok () ∧
    assert_close2d [[0, 0], [0, 0]] [[1, 100], [2, z]] (-1 : ℚ) 0 = .ok () ∧ assert_close (0 : ℚ) 1 (-1) 0 = .error .exception := by
  have g1 : good (0 : ℚ) 1 (1/2) (1/2) = false := by decide +kernel
  have g2 : allclose (0 : ℚ) 1 (1/2) (1/2) = true := by decide +kernel
  have g3 : ∀ x y : ℚ, good x y (-1) 0 = true := fun x y => by unfold good Seq.isclose; rw [if_pos (by norm_num)]
  refine ⟨?_, ?_, ?_⟩
  · rw [assert_close2d, if_neg (by simpa using hAB), rows2d, if_neg (by simp), elems2d, if_neg (by rw [g1]; simp), if_pos g2]
    rfl
  · simp [assert_close2d, rows2d, elems2d, g3, Py.ok_bind]
  · unfold assert_close Seq.isclose allclose
    rw [if_pos (by norm_num)]
    norm_num

omit [IsStrictOrderedRing K] in
/-- C122: tables of different length are ValueError at any depth, and so is a first pair of rows of different length; an AssertionError is raised by values only. -/
theorem C122_close_shape {rtol atol : K} (a b : List (List K)) (c d : List (List (List K))) (e f : List (List (List (List K)))) :
    (a.length ≠ b.length → assert_close2d a b rtol atol = .error .valueError) ∧
    (c.length ≠ d.length → assert_close3d c d rtol atol = .error .valueError) ∧
    (e.length ≠ f.length → assert_close4d e f rtol atol = .error .valueError) ∧
    (∀ x y : List K, a.length = b.length → x.length ≠ y.length → assert_close2d (x :: a) (y :: b) rtol atol = .error .valueError) ∧
    (c.length = d.length → a.length ≠ b.length → assert_close3d (a :: c) (b :: d) rtol atol = .error .valueError) ∧
    (e.length = f.length → c.length ≠ d.length → assert_close4d (c :: e) (d :: f) rtol atol = .error .valueError) := by
  refine ⟨fun h => ?_, fun h => ?_, fun h => ?_, fun x y h h' => ?_, fun h h' => ?_, fun h h' => ?_⟩
  · rw [assert_close2d, if_pos h]
  · rw [assert_close3d, if_pos h]
  · rw [assert_close4d, if_pos h]
  · rw [assert_close2d, if_neg (by simpa using h), rows2d, if_pos h']
  · rw [assert_close3d, if_neg (by simpa using h), loop3d, assert_close2d, if_pos h']
    rfl
  · rw [assert_close4d, if_neg (by simpa using h), loop4d, if_pos h']

omit [IsStrictOrderedRing K] in
/-- C122: `assert_close3d` and `assert_close4d` pass exactly when the outer lengths agree and `assert_close2d` passes on every pair of inner tables. -/
theorem C122_close3d4d {rtol atol : K} (a b : List (List (List K))) (c d : List (List (List (List K)))) :
    (assert_close3d a b rtol atol = .ok () ↔ List.Forall₂ (fun x y => assert_close2d x y rtol atol = .ok ()) a b) ∧
    (assert_close4d c d rtol atol = .ok () ↔ List.Forall₂ (List.Forall₂ fun x y => assert_close2d x y rtol atol = .ok ()) c d) := by
  have l3 : ∀ a b : List (List (List K)), a.length = b.length → (loop3d rtol atol a b = .ok () ↔ List.Forall₂ (fun x y => assert_close2d x y rtol atol = .ok ()) a b) := by
    intro a
    induction a with
    | nil => intro b hb; match b, hb with | [], _ => exact ⟨fun _ => .nil, fun _ => rfl⟩
    | cons x A ih =>
      intro b hb
      match b, hb with
      | y :: B, hb =>
        rw [loop3d, List.forall₂_cons, ← ih B (by simpa using hb)]
        constructor
        · intro h
          obtain ⟨u, h1, h2⟩ := Py.bind_eq_ok.1 h
          exact ⟨h1, h2⟩
        · rintro ⟨h1, h2⟩
          rw [h1, Py.ok_bind, h2]
  have l4 : ∀ a b : List (List (List (List K))), a.length = b.length → (loop4d rtol atol a b = .ok () ↔ List.Forall₂ (List.Forall₂ fun x y => assert_close2d x y rtol atol = .ok ()) a b) := by
    intro a
    induction a with
    | nil => intro b hb; match b, hb with | [], _ => exact ⟨fun _ => .nil, fun _ => rfl⟩
    | cons x A ih =>
      intro b hb
      match b, hb with
      | y :: B, hb =>
        rw [loop4d, List.forall₂_cons, ← ih B (by simpa using hb)]
        by_cases e : x.length = y.length
        · rw [if_neg (by simpa using e), ← l3 x y e]
          constructor
          · intro h
            obtain ⟨u, h1, h2⟩ := Py.bind_eq_ok.1 h
            exact ⟨h1, h2⟩
          · rintro ⟨h1, h2⟩
            rw [h1, Py.ok_bind, h2]
        · rw [if_pos e]
          simp only [reduceCtorEq, false_iff]
          exact fun hh => e hh.1.length_eq
  constructor
  · unfold assert_close3d
    by_cases e : a.length = b.length
    · rw [if_neg (by simpa using e), l3 a b e]
    · rw [if_pos e]
      simp only [reduceCtorEq, false_iff]
      exact fun hh => e hh.length_eq
  · unfold assert_close4d
    by_cases e : c.length = d.length
    · rw [if_neg (by simpa using e), l4 c d e]
    · rw [if_pos e]
      simp only [reduceCtorEq, false_iff]
      exact fun hh => e hh.length_eq

end Generic

/-! ### One-sided secant -/

lemma ossLine_ok {f : ℝ → Py ℝ} {y_flat x0 step : ℝ} : ∀ (l : List ℝ) (x y xf : ℝ) (r : ℝ × ℝ × ℝ), ossLine f y_flat x0 step l x y xf = .ok r → r.2.1 ≠ y_flat → y = y_flat → f r.1 = .ok r.2.1 := by
  intro l
  induction l with
  | nil => intro x y xf r h hr hy; obtain rfl := Except.ok.inj h; exact absurd hy hr
  | cons a l ih =>
    intro x y xf r h hr hy
    rw [ossLine] at h
    obtain ⟨v, hv, h⟩ := Py.bind_eq_ok.1 h
    by_cases c : v = y_flat
    · rw [if_neg (by simpa using c)] at h; exact ih _ _ _ _ h hr c
    · rw [if_pos c] at h; obtain rfl := Except.ok.inj h; exact hv

lemma ossSearch_ok {f : ℝ → Py ℝ} {higher : Prop} {y_flat x0 step xf : ℝ} {low i : ℕ} {r : ℝ × ℝ × ℝ} (h : ossSearch f higher y_flat low i x0 step xf = .ok r) : f r.1 = .ok r.2.1 ∧ r.2.1 ≠ y_flat := by
  unfold ossSearch at h
  obtain ⟨q, hq, h⟩ := Py.bind_eq_ok.1 h
  by_cases c : q.2.1 = y_flat
  · rw [if_pos c] at h; cases h
  · rw [if_neg c] at h
    obtain rfl := Except.ok.inj h
    exact ⟨ossLine_ok _ _ _ _ _ hq c rfl, c⟩

lemma ossPoint_ok {f : ℝ → Py ℝ} {higher : Prop} {y_flat x0 x1 step xf : ℝ} {low i : ℕ} {r : ℝ × ℝ × ℝ} (h : ossPoint f higher y_flat low i x0 x1 step xf = .ok r) : f r.1 = .ok r.2.1 ∧ r.2.1 ≠ y_flat := by
  unfold ossPoint at h
  split_ifs at h with c
  · exact ossSearch_ok h
  · obtain ⟨y, hy, h⟩ := Py.bind_eq_ok.1 h
    by_cases c2 : y = y_flat
    · rw [if_pos c2] at h; exact ossSearch_ok h
    · rw [if_neg c2] at h; obtain rfl := Except.ok.inj h; exact ⟨hy, c2⟩

/-- C122: a point returned by `one_sided_secant` is a point at which the function was evaluated, off the flat region, and below `ytol` if that is given; without a tolerance it never returns. -/
theorem C122_oss_sound {f : ℝ → Py ℝ} {o : OssOpts} {x0 x_flat x : ℝ} {x1 y_flat y0 y1 : Option ℝ} (h : one_sided_secant f o x0 x_flat x1 y_flat y0 y1 = .ok x) :
    ∃ y yf, f x = .ok y ∧ valueOr y_flat (f x_flat) = .ok yf ∧ y ≠ yf ∧ (∀ yt ∈ o.ytol, |y| < yt) ∧ (o.xtol ≠ none ∨ o.ytol ≠ none) := by
  have loop : ∀ {yf : ℝ} {higher : Prop} n i a b c d p xf, ossLoop f o higher yf n i a b c d p xf = .ok x → ∃ y, f x = .ok y ∧ y ≠ yf ∧ (∀ yt ∈ o.ytol, |y| < yt) ∧ (o.xtol ≠ none ∨ o.ytol ≠ none) := by
    intro yf higher n
    induction n with
    | zero => intro i a b c d p xf h; rw [ossLoop] at h; split_ifs at h
    | succ n ih =>
      intro i a b c d p xf h
      rw [ossLoop] at h
      obtain ⟨s, -, h⟩ := Py.bind_eq_ok.1 h
      obtain ⟨r, hr, h⟩ := Py.bind_eq_ok.1 h
      by_cases e : ossDone o.xtol o.ytol r.1 a r.2.1
      · rw [if_pos e] at h
        obtain rfl := Except.ok.inj h
        obtain ⟨h1, h2⟩ := ossPoint_ok hr
        refine ⟨_, h1, h2, ?_, ?_⟩
        · intro yt hyt
          rw [Option.mem_def] at hyt
          rw [hyt] at e
          unfold ossDone at e
          match o.xtol, e with
          | some _, e => exact e.1
          | none, e => exact e
        · by_contra hc
          push Not at hc
          rw [hc.1, hc.2] at e
          exact e
      · rw [if_neg e] at h; exact ih _ _ _ _ _ _ _ h
  unfold one_sided_secant at h
  obtain ⟨a, -, h⟩ := Py.bind_eq_ok.1 h
  obtain ⟨b, -, h⟩ := Py.bind_eq_ok.1 h
  obtain ⟨yf, hyf, h⟩ := Py.bind_eq_ok.1 h
  by_cases c1 : a = yf
  · rw [if_pos c1] at h; cases h
  rw [if_neg c1] at h
  by_cases c2 : a = b
  · rw [if_pos c2] at h; cases h
  rw [if_neg c2] at h
  by_cases c3 : b = yf
  · rw [if_pos c3] at h; cases h
  rw [if_neg c3] at h
  obtain ⟨y, h1, h2, h3⟩ := loop _ _ _ _ _ _ _ _ h
  exact ⟨y, yf, h1, hyf, h2, h3⟩

lemma factors_mem {v : ℝ} (h : v ∈ line_search_factors) : 0 < v ∧ v ≤ 1 := by
  simp only [line_search_factors, List.mem_cons, List.not_mem_nil, or_false] at h
  rcases h with h | h | h | h | h | h | h | h | h | h | h | h | h | h | h | h | h <;> rw [h] <;> norm_num

open Classical in
/-- C122: if the function is flat exactly above `t`, with the start below and the given flat point above it, the solver never looks beyond the flat point: what the function does there cannot change the
result, whatever steps it takes. -/
theorem C122_oss_side {f g : ℝ → Py ℝ} {o : OssOpts} {x0 x_flat t yf : ℝ} {x1 y0 y1 : Option ℝ} (hfg : ∀ z ≤ x_flat, f z = g z) (hflat : ∀ z ≤ x_flat, f z = .ok yf ↔ t ≤ z) (h0 : x0 < t)
    (ht : t ≤ x_flat) (h1 : ossX1 x0 x1 ≤ x_flat) : one_sided_secant f o x0 x_flat x1 (some yf) y0 y1 = one_sided_secant g o x0 x_flat x1 (some yf) y0 y1 := by
  have hig : x_flat > x0 := by linarith
  have line : ∀ (l : List ℝ) (a s x y xf : ℝ), (∀ v ∈ l, 0 < v ∧ v ≤ 1) → a < t → t ≤ xf → xf ≤ x_flat → a + s ≤ xf →
      ossLine f yf a s l x y xf = ossLine g yf a s l x y xf ∧ ∀ r, ossLine f yf a s l x y xf = .ok r → t ≤ r.2.2 ∧ r.2.2 ≤ x_flat ∧ (r.1 ≤ x_flat ∨ r.1 = x) := by
    intro l
    induction l with
    | nil => intro a s x y xf _ _ h1 h2 _; exact ⟨rfl, fun r hr => by obtain rfl := Except.ok.inj hr; exact ⟨h1, h2, .inr rfl⟩⟩
    | cons v l ih =>
      intro a s x y xf hl ha h1 h2 h3
      obtain ⟨v0, v1⟩ := hl v (by simp)
      have hz : a + s * v ≤ xf := by
        rcases le_total 0 s with hs | hs <;> nlinarith
      rw [ossLine, ossLine, ← hfg _ (hz.trans h2)]
      match hf : f (a + s * v) with
      | .error e => exact ⟨rfl, fun r hr => by cases hr⟩
      | .ok w =>
        simp only [Py.ok_bind]
        by_cases c : w = yf
        · have htz : t ≤ a + s * v := (hflat _ (hz.trans h2)).1 (by rw [hf, c])
          rw [if_neg (by simpa using c), if_neg (by simpa using c)]
          by_cases hs : 0 ≤ s
          · -- later factors need not be smaller: bound by the interval itself
            have key := ih a s (a + s * v) w
            -- the remaining points stay below x_flat by the original bound
            have : ∀ (l : List ℝ) (x y xf' : ℝ), (∀ v ∈ l, 0 < v ∧ v ≤ 1) → t ≤ xf' → xf' ≤ x_flat → a + s ≤ x_flat → 
                ossLine f yf a s l x y xf' = ossLine g yf a s l x y xf' ∧ ∀ r, ossLine f yf a s l x y xf' = .ok r → t ≤ r.2.2 ∧ r.2.2 ≤ x_flat ∧ (r.1 ≤ x_flat ∨ r.1 = x) := by
              intro l
              induction l with
              | nil => intro x y xf' _ h1 h2 _; exact ⟨rfl, fun r hr => by obtain rfl := Except.ok.inj hr; exact ⟨h1, h2, .inr rfl⟩⟩
              | cons u l ih2 =>
                intro x y xf' hl h1 h2 h3
                obtain ⟨u0, u1⟩ := hl u (by simp)
                have hz : a + s * u ≤ x_flat := by nlinarith
                rw [ossLine, ossLine, ← hfg _ hz]
                match hf : f (a + s * u) with
                | .error e => exact ⟨rfl, fun r hr => by cases hr⟩
                | .ok w =>
                  simp only [Py.ok_bind]
                  by_cases c : w = yf
                  · have htz : t ≤ a + s * u := (hflat _ hz).1 (by rw [hf, c])
                    rw [if_neg (by simpa using c), if_neg (by simpa using c)]
                    obtain ⟨e1, e2⟩ := ih2 (a + s * u) w (a + s * u) (fun v hv => hl v (by simp [hv])) htz hz h3
                    exact ⟨e1, fun r hr => ⟨(e2 r hr).1, (e2 r hr).2.1, .inl ((e2 r hr).2.2.elim id fun h => h ▸ hz)⟩⟩
                  · rw [if_pos c, if_pos c]
                    exact ⟨rfl, fun r hr => by obtain rfl := Except.ok.inj hr; exact ⟨h1, h2, .inl hz⟩⟩
            obtain ⟨e1, e2⟩ := this l (a + s * v) w (a + s * v) (fun u hu => hl u (by simp [hu])) htz (hz.trans h2) (h3.trans h2)
            exact ⟨e1, fun r hr => ⟨(e2 r hr).1, (e2 r hr).2.1, .inl ((e2 r hr).2.2.elim id fun h => h ▸ hz.trans h2)⟩⟩
          · exfalso; nlinarith
        · rw [if_pos c, if_pos c]
          exact ⟨rfl, fun r hr => by obtain rfl := Except.ok.inj hr; exact ⟨h1, h2, .inl (hz.trans h2)⟩⟩
  have search : ∀ (low i : ℕ) (a s xf : ℝ), a < t → t ≤ xf → xf ≤ x_flat →
      ossSearch f (x_flat > x0) yf low i a s xf = ossSearch g (x_flat > x0) yf low i a s xf ∧ ∀ r, ossSearch f (x_flat > x0) yf low i a s xf = .ok r → t ≤ r.2.2 ∧ r.2.2 ≤ x_flat ∧ r.1 ≤ x_flat := by
    intro low i a s xf ha h1 h2
    unfold ossSearch
    dsimp only
    have hs : ∃ s', (if beyond (x_flat > x0) xf (a + s) then xf - a else s) = s' ∧ a + s' ≤ xf := by
      refine ⟨_, rfl, ?_⟩
      unfold beyond
      rw [if_pos hig]
      split_ifs with c
      · linarith
      · linarith [not_le.1 c]
    obtain ⟨s', hs', hle⟩ := hs
    rw [hs']
    have hl : ∀ v ∈ (if i > low then line_search_factors else line_search_factors_low_prec), 0 < v ∧ v ≤ 1 := by
      intro v hv
      split_ifs at hv
      · exact factors_mem hv
      · exact factors_mem (List.mem_of_mem_drop hv)
    obtain ⟨e1, e2⟩ := line _ a s' a yf xf hl ha h1 h2 hle
    refine ⟨by rw [e1], fun r hr => ?_⟩
    obtain ⟨q, hq, hr⟩ := Py.bind_eq_ok.1 hr
    split_ifs at hr with c
    obtain rfl := Except.ok.inj hr
    obtain ⟨a1, a2, a3⟩ := e2 _ hq
    exact ⟨a1, a2, a3.elim id fun h => by rw [h]; linarith⟩
  have point : ∀ (low i : ℕ) (a b s xf : ℝ), a < t → t ≤ xf → xf ≤ x_flat →
      ossPoint f (x_flat > x0) yf low i a b s xf = ossPoint g (x_flat > x0) yf low i a b s xf ∧ ∀ r, ossPoint f (x_flat > x0) yf low i a b s xf = .ok r → t ≤ r.2.2 ∧ r.2.2 ≤ x_flat ∧ r.1 ≤ x_flat := by
    intro low i a b s xf ha h1 h2
    unfold ossPoint
    by_cases c : beyond (x_flat > x0) xf (b + s)
    · rw [if_pos c, if_pos c]; exact search low i a s xf ha h1 h2
    · rw [if_neg c, if_neg c]
      unfold beyond at c
      rw [if_pos hig, not_le] at c
      rw [← hfg _ (c.le.trans h2)]
      match hf : f (b + s) with
      | .error e => exact ⟨rfl, fun r hr => by cases hr⟩
      | .ok w =>
        simp only [Py.ok_bind]
        by_cases cw : w = yf
        · rw [if_pos cw, if_pos cw]
          exact search low i a s (b + s) ha ((hflat _ (c.le.trans h2)).1 (by rw [hf, cw])) (c.le.trans h2)
        · rw [if_neg cw, if_neg cw]
          exact ⟨rfl, fun r hr => by obtain rfl := Except.ok.inj hr; exact ⟨h1, h2, c.le.trans h2⟩⟩
  have loop : ∀ n i a b c d p xf, a < t → t ≤ xf → xf ≤ x_flat → ossLoop f o (x_flat > x0) yf n i a b c d p xf = ossLoop g o (x_flat > x0) yf n i a b c d p xf := by
    intro n
    induction n with
    | zero => intros; rfl
    | succ n ih =>
      intro i a b c d p xf ha h1 h2
      rw [ossLoop, ossLoop]
      match ossStep o.damping o.max_quadratic_iter i a b c d p with
      | .error e => rfl
      | .ok s =>
        simp only [Py.ok_bind]
        obtain ⟨e1, e2⟩ := point o.low_prec_ls_iter i a b s xf ha h1 h2
        rw [← e1]
        match hr : ossPoint f (x_flat > x0) yf o.low_prec_ls_iter i a b s xf with
        | .error e => rfl
        | .ok r =>
          simp only [Py.ok_bind]
          obtain ⟨b1, b2, b3⟩ := e2 r hr
          obtain ⟨v1, v2⟩ := ossPoint_ok hr
          split_ifs with cd
          · rfl
          · apply ih _ _ _ _ _ _ _ _ b1 b2
            by_contra hc
            exact v2 (Except.ok.inj (v1.symm.trans ((hflat _ b3).2 (not_lt.1 hc))))
  unfold one_sided_secant
  rw [← hfg x0 (by linarith), ← hfg _ h1]
  generalize valueOr y0 (f x0) = A
  generalize valueOr y1 (f (ossX1 x0 x1)) = B
  match A with
  | .error e => rfl
  | .ok a =>
    match B with
    | .error e => rfl
    | .ok b =>
      simp only [Py.ok_bind, valueOr]
      rw [loop _ _ _ _ _ _ _ _ h0 ht le_rfl]

/-- a function that raises beyond the flat point 10 -/
example (o : OssOpts) : one_sided_secant (fun x => .ok (if x < 5 then x - 3 else 4)) o 0 10 none (some 4) none none =
    one_sided_secant (fun x => if x ≤ 10 then .ok (if x < 5 then x - 3 else 4) else .error .valueError) o 0 10 none (some 4) none none := by
  apply C122_oss_side (t := 5)
  · intro z hz; rw [if_pos hz]
  · intro z _
    constructor
    · intro h
      by_contra c
      have := Except.ok.inj h
      rw [if_pos (not_le.1 c)] at this
      linarith
    · intro h; rw [if_neg (not_lt.2 h)]
  · norm_num
  · norm_num
  · norm_num [ossX1]

/-- C122: a straight line on the near side of the flat point is solved exactly by the first step. -/
theorem C122_oss_linear {f : ℝ → Py ℝ} {o : OssOpts} {x0 x1 x_flat k r yf yt : ℝ} (hm : o.maxiter ≠ 0) (hd : o.damping = 1) (hx : o.xtol = none) (hy : o.ytol = some yt) (hyt : 0 < yt) (hk : k ≠ 0)
    (h01 : x0 ≠ x1) (f0 : f x0 = .ok (k * (x0 - r))) (f1 : f x1 = .ok (k * (x1 - r))) (fr : f r = .ok 0) (ff : f x_flat = .ok yf) (n0 : k * (x0 - r) ≠ yf) (n1 : k * (x1 - r) ≠ yf) (n2 : 0 ≠ yf)
    (hside : (x0 < x_flat ∧ r < x_flat) ∨ (x_flat ≤ x0 ∧ x_flat < r)) : one_sided_secant f o x0 x_flat (some x1) none none none = .ok r := by
  have h10 : x1 - x0 ≠ 0 := sub_ne_zero.2 h01.symm
  obtain ⟨n, hn⟩ : ∃ n, o.maxiter = n + 1 := ⟨o.maxiter - 1, by omega⟩
  have hst : ossStep o.damping o.max_quadratic_iter 0 x0 x1 (k * (x0 - r)) (k * (x1 - r)) none = .ok (r - x1) := by
    unfold ossStep
    dsimp only
    rw [pdiv_ok (by rw [show k * (x1 - r) - k * (x0 - r) = k * (x1 - x0) by ring]; exact mul_ne_zero hk h10), Py.ok_bind, hd]
    congr 1
    rw [show k * (x1 - r) - k * (x0 - r) = k * (x1 - x0) by ring]
    field_simp
    ring
  unfold one_sided_secant
  simp only [valueOr, ossX1]
  rw [f0, Py.ok_bind, f1, Py.ok_bind, ff, Py.ok_bind, if_neg n0, if_neg, if_neg n1, hn, ossLoop, hst, Py.ok_bind]
  · have hp : ossPoint f (x_flat > x0) yf o.low_prec_ls_iter 0 x0 x1 (r - x1) x_flat = .ok (r, 0, x_flat) := by
      unfold ossPoint
      rw [show x1 + (r - x1) = r by ring, if_neg, fr, Py.ok_bind, if_neg n2]
      unfold beyond
      rcases hside with ⟨s1, s2⟩ | ⟨s1, s2⟩
      · rw [if_pos s1]; exact not_le.2 s2
      · rw [if_neg (not_lt.2 s1)]; exact not_le.2 s2
    rw [hp, Py.ok_bind]
    dsimp only
    rw [if_pos]
    rw [hx, hy]
    unfold ossDone
    simpa using hyt
  · intro h
    have : k * (x1 - x0) = 0 := by linear_combination -h
    exact mul_ne_zero hk h10 this

example : one_sided_secant (fun x => .ok (if x < 5 then 2 * (x - 3) else 4)) ⟨100, none, some 1e-9, 1, 7, 3⟩ 0 10 (some 1) none none none = .ok 3 := by
  apply C122_oss_linear (k := 2) (yf := 4) (yt := 1e-9) <;> norm_num

/-- C122: without a second point the search starts from the first one moved away from zero by a ten-thousandth of itself and 0.0001 more; values supplied by the caller are used instead of evaluating. -/
theorem C122_oss_start {f : ℝ → Py ℝ} {o : OssOpts} {x0 x_flat : ℝ} {yf y0 y1 : Option ℝ} :
    (0 ≤ x0 → one_sided_secant f o x0 x_flat none yf y0 y1 = one_sided_secant f o x0 x_flat (some (x0 * 1.0001 + 0.0001)) yf y0 y1) ∧
    (x0 < 0 → one_sided_secant f o x0 x_flat none yf y0 y1 = one_sided_secant f o x0 x_flat (some (x0 * 1.0001 - 0.0001)) yf y0 y1) ∧
    (∀ x1 a b c, f x0 = .ok a → f x1 = .ok b → f x_flat = .ok c →
      one_sided_secant f o x0 x_flat (some x1) (some c) (some a) (some b) = one_sided_secant f o x0 x_flat (some x1) none none none) := by
  refine ⟨fun h => ?_, fun h => ?_, fun x1 a b c ha hb hc => ?_⟩
  · have : ossX1 x0 none = ossX1 x0 (some (x0 * 1.0001 + 0.0001)) := by
      simp only [ossX1]
      rw [if_pos h]
    unfold one_sided_secant
    rw [this]
  · have : ossX1 x0 none = ossX1 x0 (some (x0 * 1.0001 - 0.0001)) := by
      simp only [ossX1]
      rw [if_neg (not_le.2 h)]
    unfold one_sided_secant
    rw [this]
  · unfold one_sided_secant
    simp only [valueOr, ossX1, ha, hb, hc]

/-- C122: the checks on the start, and the limit on the iterations. -/
theorem C122_oss_errors {f : ℝ → Py ℝ} {o : OssOpts} {x0 x1 x_flat a b yf : ℝ} (f0 : f x0 = .ok a) (f1 : f x1 = .ok b) (ff : f x_flat = .ok yf) :
    (a = yf ∨ a = b ∨ b = yf → one_sided_secant f o x0 x_flat (some x1) none none none = .error .valueError) ∧
    (a ≠ yf → a ≠ b → b ≠ yf → o.maxiter = 0 → one_sided_secant f o x0 x_flat (some x1) none none none = .error .unboundLocalError) := by
  unfold one_sided_secant
  simp only [valueOr, ossX1]
  rw [f0, Py.ok_bind, f1, Py.ok_bind, ff, Py.ok_bind]
  constructor
  · intro h
    split_ifs with c1 c2 c3
    · rfl
    · rfl
    · rfl
    · rcases h with h | h | h <;> contradiction
  · intro h1 h2 h3 h4
    rw [if_neg h1, if_neg h2, if_neg h3, h4]
    rfl

/-- C122 (finding): "secant can always work" fails: when two successive points have one value and the parabola no real root, the secant step divides by zero. -/
theorem C122_oss_zero_division {f : ℝ → Py ℝ} (f0 : f 0 = .ok 2) (f1 : f 1 = .ok 3) (f2 : f (-2) = .ok 2) (ff : f 10 = .ok 5) :
    one_sided_secant f ⟨100, none, some 1, 1, 7, 3⟩ 0 10 (some 1) none none none = .error .zeroDivisionError := by
  unfold one_sided_secant
  simp only [valueOr, ossX1]
  rw [f0, Py.ok_bind, f1, Py.ok_bind, ff, Py.ok_bind, if_neg (by norm_num), if_neg (by norm_num), if_neg (by norm_num), ossLoop]
  have s1 : ossStep 1 7 0 0 1 2 3 none = .ok (-3) := by
    unfold ossStep
    dsimp only
    rw [pdiv_ok (by norm_num), Py.ok_bind]
    norm_num
  have p1 : ossPoint f ((10 : ℝ) > 0) 5 3 0 0 1 (-3) 10 = .ok (-2, 2, 10) := by
    unfold ossPoint
    rw [if_neg (by unfold beyond; norm_num), show (1 : ℝ) + -3 = -2 by norm_num, f2, Py.ok_bind, if_neg (by norm_num)]
  rw [s1, Py.ok_bind, p1, Py.ok_bind]
  dsimp only
  rw [if_neg (by unfold ossDone; norm_num), ossLoop]
  have q : quadStep (-2) 0 1 2 2 3 = none := by
    have e : PolyUtils.quadratic_from_points (-2 : ℝ) 0 1 2 2 3 = .ok (1/3, 2/3, 2) := by
      unfold PolyUtils.quadratic_from_points
      dsimp only
      rw [pdiv_ok (by norm_num), Py.ok_bind]
      norm_num
    unfold quadStep
    rw [e]
    dsimp only
    have r : ∃ D : ℝ, D ≠ 0 ∧ Roots.roots_quadratic (1/3) (2/3) 2 = .ok ((-((2/3 : ℝ) : ℂ) + (D : ℂ) * Complex.I) * ((3/2 : ℝ) : ℂ), (-((2/3 : ℝ) : ℂ) - (D : ℂ) * Complex.I) * ((3/2 : ℝ) : ℂ)) := by
      refine ⟨Real.sqrt (-((2/3) * (2/3) - 4 * (1/3) * 2)), (Real.sqrt_pos.2 (by norm_num)).ne', ?_⟩
      unfold Roots.roots_quadratic
      rw [if_neg (by norm_num)]
      dsimp only
      rw [pdiv_ok (by norm_num), Py.ok_bind, if_pos (by norm_num), psqrt_ok (by norm_num), Py.ok_bind]
      norm_num
    obtain ⟨D, hD, hr⟩ := r
    rw [hr]
    dsimp only
    unfold quadRoot
    rw [if_neg]
    simp [Complex.mul_im, Complex.add_im]
    exact hD
  have s2 : ossStep 1 7 (0 + 1) (-2) 0 2 2 (some (1, 3)) = .error .zeroDivisionError := by
    unfold ossStep
    dsimp only
    rw [if_pos (by norm_num), q]
    dsimp only
    rw [sub_self, pdiv_zero, Py.error_bind]
  rw [s2, Py.error_bind]

/-- C122: the line search towards a flat region takes 99 % of the step first, or 92 % of it in the first `low_prec_ls_iter` iterations, and stops there if the objective is not flat there. -/
theorem C122_first_factor (f : ℝ → Py ℝ) {higher : Prop} [Decidable higher] {y_flat x0 step x_flat y : ℝ} {low i : ℕ} (hb : ¬ beyond higher x_flat (x0 + step)) (hy : y ≠ y_flat) :
    (i ≤ low → f (x0 + step * 0.92) = .ok y → ossSearch f higher y_flat low i x0 step x_flat = .ok (x0 + step * 0.92, y, x_flat)) ∧
    (low < i → f (x0 + step * 0.99) = .ok y → ossSearch f higher y_flat low i x0 step x_flat = .ok (x0 + step * 0.99, y, x_flat)) := by
  constructor
  · intro hi hf
    unfold ossSearch
    dsimp only
    rw [if_neg (by convert hb), if_neg (not_lt.2 hi)]
    simp only [line_search_factors_low_prec, line_search_factors, List.drop_succ_cons, List.drop_zero, ossLine]
    rw [hf, Py.ok_bind, if_pos hy, Py.ok_bind]
    dsimp only
    rw [if_neg hy]
  · intro hi hf
    unfold ossSearch
    dsimp only
    rw [if_neg (by convert hb), if_pos hi]
    simp only [line_search_factors, ossLine]
    rw [hf, Py.ok_bind, if_pos hy, Py.ok_bind]
    dsimp only
    rw [if_neg hy]

end Verif.Guards
