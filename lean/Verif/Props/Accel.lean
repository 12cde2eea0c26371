import Verif.Model.Accel
import Verif.Props.Systems
import Mathlib.Tactic

/-! C121: accelerated fixed-point iterations. -/

namespace Verif.Accel
open Verif Verif.Solve Verif.Systems
variable {K : Type _} [Field K] [LinearOrder K]

/-! ### Aitken and the general dominant eigenvalue method -/

/-- the point of evaluation from which the last point was computed: the start, or a later guess with its history -/
def LastStep (accel : List (List K) → Py (List K)) (freq : ℕ) (damping acc_damping : K) (x0 : List K) (y F x : List K) (n : ℕ) : Prop :=
  (y = x0 ∧ n = 1 ∧ x = List.zipWith (fun a b => a - b) y F) ∨
  (2 ≤ n ∧ ¬(n - 1) % freq = 0 ∧ x = List.zipWith (fun a b => a - b * damping) y F) ∨
  (2 ≤ n ∧ (n - 1) % freq = 0 ∧ ∃ hist dx, accel (y :: hist) = .ok dx ∧ x = List.zipWith (fun a b => a + b * acc_damping) y dx)

/-- C121: what `fixed_point_aitken` and `fixed_point_gdem` return (`accel` being the extrapolation): the start, if only `ytol` is given and its residuals are already below it, or a point one plain,
damped or accelerated step away from a point whose residuals meet every tolerance asked for, after at most `maxiter` evaluations. -/
theorem C121_accelerated {accel : List (List K) → Py (List K)} {freq : ℕ} {norm2 : List K → K} {f : List K → Py (List K)} {xtol ytol : Option K} {damping acc_damping : K} {rp : Bool} {maxiter : ℕ}
    {x0 x : List K} {n : ℕ} (h : fixed_point_acc accel freq norm2 f xtol ytol damping acc_damping rp maxiter x0 = .ok (x, n)) :
    (x = x0 ∧ n = 0 ∧ xtol = none ∧ ∃ F yt, f x0 = .ok F ∧ ytol = some yt ∧ l1 F < yt) ∨
    (n ≤ max 1 maxiter ∧ ∃ y F, f y = .ok F ∧ Meets norm2 xtol ytol F ∧ LastStep accel freq damping acc_damping x0 y F x n) := by
  have loop : ∀ fuel gs x F err it r, (∃ y, f y = .ok F ∧ LastStep accel freq damping acc_damping x0 y F x it) → 1 ≤ it →
      accLoop accel freq norm2 f xtol ytol damping acc_damping rp maxiter fuel gs x F err it = .ok r →
      r.2.2 ≤ max it maxiter ∧ ∃ y, f y = .ok r.2.1 ∧ LastStep accel freq damping acc_damping x0 y r.2.1 r.1 r.2.2 := by
    intro fuel
    induction fuel with
    | zero => intro gs x F err it r hy _ h; obtain rfl := Except.ok.inj h; exact ⟨le_max_left _ _, hy⟩
    | succ fuel ih =>
      intro gs x F err it r hy hit h
      rw [accLoop] at h
      by_cases c : it < maxiter
      · rw [if_pos c] at h
        obtain ⟨G, hG, h⟩ := Py.bind_eq_ok.1 h
        obtain ⟨x', hx', h⟩ := Py.bind_eq_ok.1 h
        have st : ∃ y, f y = .ok G ∧ LastStep accel freq damping acc_damping x0 y G x' (it + 1) := by
          refine ⟨x, hG, ?_⟩
          unfold nextPoint at hx'
          by_cases c0 : freq = 0
          · rw [if_pos c0] at hx'; cases hx'
          rw [if_neg c0] at hx'
          by_cases c1 : it % freq = 0
          · rw [if_pos c1] at hx'
            obtain ⟨dx, hdx, hx'⟩ := Py.bind_eq_ok.1 hx'
            exact .inr (.inr ⟨by omega, by simpa using c1, gs, dx, hdx, (Except.ok.inj hx').symm⟩)
          · rw [if_neg c1] at hx'
            exact .inr (.inl ⟨by omega, by simpa using c1, (Except.ok.inj hx').symm⟩)
        by_cases c2 : stops norm2 xtol ytol G = true
        · rw [if_pos c2] at h
          obtain rfl := Except.ok.inj h
          exact ⟨le_max_of_le_right c, st⟩
        rw [if_neg c2] at h
        by_cases c3 : absSum G ≥ err ∧ rp = true
        · rw [if_pos c3] at h; cases h
        rw [if_neg c3] at h
        obtain ⟨a, b⟩ := ih _ _ _ _ _ _ st (by omega) h
        exact ⟨a.trans (max_le (le_max_of_le_right c) (le_max_right _ _)), b⟩
      · rw [if_neg c] at h
        obtain rfl := Except.ok.inj h
        exact ⟨le_max_left _ _, hy⟩
  unfold fixed_point_acc at h
  obtain ⟨F, hF, h⟩ := Py.bind_eq_ok.1 h
  by_cases c : xtol = none ∧ ∃ yt ∈ ytol, absSum F < yt
  · rw [if_pos c] at h
    obtain ⟨rfl, rfl⟩ := Prod.mk.inj (Except.ok.inj h)
    obtain ⟨yt, hy, hlt⟩ := c.2
    exact .inl ⟨rfl, rfl, c.1, F, yt, hF, hy, by rw [← absSum_l1]; exact hlt⟩
  · rw [if_neg c] at h
    obtain ⟨s, hs, h⟩ := Py.bind_eq_ok.1 h
    obtain ⟨a, y, hy, hl⟩ := loop _ _ _ _ _ _ _ ⟨x0, hF, .inl ⟨rfl, rfl, rfl⟩⟩ le_rfl hs
    by_cases c1 : ∃ xt ∈ xtol, norm2 s.2.1 > xt
    · rw [if_pos c1] at h; cases h
    rw [if_neg c1] at h
    by_cases c2 : ∃ yt ∈ ytol, absSum s.2.1 > yt
    · rw [if_pos c2] at h; cases h
    rw [if_neg c2] at h
    obtain ⟨rfl, rfl⟩ := Prod.mk.inj (Except.ok.inj h)
    refine .inr ⟨a, y, s.2.1, hy, ⟨fun xt hx => ?_, fun yt hy => ?_⟩, hl⟩
    · by_contra hh; exact c1 ⟨xt, hx, not_le.1 hh⟩
    · by_contra hh; exact c2 ⟨yt, hy, by rw [absSum_l1]; exact not_le.1 hh⟩

/-- C121: the iteration goes no further than needed: at any point where every tolerance asked for (at least one) is met strictly, the loop ends with the step from that point. -/
theorem C121_stops {accel : List (List K) → Py (List K)} {freq : ℕ} {norm2 : List K → K} {f : List K → Py (List K)} {xtol ytol : Option K} {damping acc_damping err : K} {rp : Bool}
    {maxiter fuel it : ℕ} {gs : List (List K)} {x F0 F x' : List K} (hit : it < maxiter) (hF : f x = .ok F) (hx : nextPoint accel freq damping acc_damping it (x :: gs) x F = .ok x')
    (hxt : ∀ t ∈ xtol, norm2 F < t) (hyt : ∀ t ∈ ytol, l1 F < t) (hsome : xtol ≠ none ∨ ytol ≠ none) :
    accLoop accel freq norm2 f xtol ytol damping acc_damping rp maxiter (fuel + 1) gs x F0 err it = .ok (x', F, it + 1) := by
  have hs : stops norm2 xtol ytol F = true := by
    unfold stops
    rcases xtol with _ | xt <;> rcases ytol with _ | yt
    · simp at hsome
    · have := hyt yt rfl
      rw [← absSum_l1] at this
      simpa using this
    · simpa using hxt xt rfl
    · have h1 := hyt yt rfl
      rw [← absSum_l1] at h1
      simpa using ⟨hxt xt rfl, h1⟩
  rw [accLoop, if_pos hit, hF, Py.ok_bind, hx, Py.ok_bind, if_pos hs]

example : accLoop (aitkenStep (1/2 : ℚ)) 4 (fun F => absSum F) (fun x => .ok (x.map fun v => v / 2 - 1)) (some 1) none 1 1 false 20 (0 + 1) [[10]] [3] [4] 4 1 = .ok ([5/2], [1/2], 2) :=
  C121_stops (by norm_num) (by norm_num) (by simp [nextPoint]; norm_num) (by intro t ht; cases ht; norm_num [absSum]) (by simp) (by simp)

/-- the residual of `x = x/2 + 1` -/
def fHalf : List ℚ → Py (List ℚ) := fun x => .ok (x.map fun v => v / 2 - 1)

/-- whether the call returned this point after this many evaluations -/
def isRes (r : Py (List ℚ × ℕ)) (x : List ℚ) (n : ℕ) : Bool :=
  match r with
  | .ok (y, m) => decide (y = x) && decide (m = n)
  | _ => false

lemma isRes_eq {r : Py (List ℚ × ℕ)} {x : List ℚ} {n : ℕ} (h : isRes r x n = true) : r = .ok (x, n) := by
  unfold isRes at h
  match r, h with
  | .ok (y, m), h => rw [Bool.and_eq_true, decide_eq_true_eq, decide_eq_true_eq] at h; rw [h.1, h.2]

example : ∃ x n, fixed_point_acc (aitkenStep (1/2)) 4 (fun F => absSum F) fHalf none (some (1/100)) 1 1 false 20 [10] = .ok (x, n) ∧ 4 < n :=
  ⟨_, _, isRes_eq (x := [2057/1024]) (n := 16) (by decide +kernel), by norm_num⟩

/-- C121: `acc_frequency` must be large enough for the history it needs: 0 divides by zero and 1 indexes before the list of guesses, for either method and every objective that can be evaluated. -/
theorem C121_frequency {norm2 : List K → K} {f : List K → Py (List K)} {xtol ytol : Option K} {damping acc_damping r : K} {rp : Bool} {maxiter : ℕ} {x0 F0 F1 : List K} (hm : 2 ≤ maxiter)
    (hF0 : f x0 = .ok F0) (hF1 : f (List.zipWith (fun a b => a - b) x0 F0) = .ok F1) (hy : xtol = none → ∀ yt ∈ ytol, yt ≤ l1 F0) :
    fixed_point_acc (aitkenStep r) 0 norm2 f xtol ytol damping acc_damping rp maxiter x0 = .error .zeroDivisionError ∧
    fixed_point_acc (gdemStep r) 0 norm2 f xtol ytol damping acc_damping rp maxiter x0 = .error .zeroDivisionError ∧
    fixed_point_acc (aitkenStep r) 1 norm2 f xtol ytol damping acc_damping rp maxiter x0 = .error .indexError ∧
    fixed_point_acc (gdemStep r) 1 norm2 f xtol ytol damping acc_damping rp maxiter x0 = .error .indexError := by
  have gen : ∀ accel freq e, nextPoint accel freq damping acc_damping 1 [List.zipWith (fun a b => a - b) x0 F0, x0] (List.zipWith (fun a b => a - b) x0 F0) F1 = .error e →
      fixed_point_acc accel freq norm2 f xtol ytol damping acc_damping rp maxiter x0 = .error e := by
    intro accel freq e he
    unfold fixed_point_acc
    rw [hF0, Py.ok_bind, if_neg (by rintro ⟨h, yt, hyt, hlt⟩; rw [absSum_l1] at hlt; exact absurd hlt (not_lt.2 (hy h yt hyt)))]
    obtain ⟨n, rfl⟩ : ∃ n, maxiter = n + 1 := ⟨maxiter - 1, by omega⟩
    dsimp only
    rw [accLoop, if_pos (by omega), hF1, Py.ok_bind, he, Py.error_bind, Py.error_bind]
  refine ⟨gen _ _ _ ?_, gen _ _ _ ?_, gen _ _ _ ?_, gen _ _ _ ?_⟩
  all_goals (unfold nextPoint; simp [aitkenStep, gdemStep])

example : fixed_point_acc (aitkenStep (1/2)) 1 (fun F => absSum F) fHalf none (some (1/100)) 1 1 false 20 [10] = .error .indexError :=
  (C121_frequency (F0 := [4]) (F1 := [2]) (by norm_num) (by decide +kernel) (by decide +kernel) (fun _ yt h => by obtain rfl := Option.some.inj h; norm_num [l1])).2.2.1

/-- C121: every component of Aitken's step is zero or less than the allowed ratio of the component it is added to. -/
theorem C121_aitken_bounded [IsStrictOrderedRing K] {r : K} (hr : 0 ≤ r) (x x1 x2 : List K) (i : ℕ) (hi : i < x.length) :
    (aitken_delta_squared_accelerate r x x1 x2).length = x.length ∧ |(aitken_delta_squared_accelerate r x x1 x2).getD i 0| ≤ r * |x.getD i 0| := by
  constructor
  · simp [aitken_delta_squared_accelerate]
  · have : (aitken_delta_squared_accelerate r x x1 x2).getD i 0 = aitken1 r (x.getD i 0) (x1.getD i 0) (x2.getD i 0) := by
      simp [aitken_delta_squared_accelerate, List.getD, hi]
    rw [this]
    generalize x.getD i 0 = a
    generalize x1.getD i 0 = b
    generalize x2.getD i 0 = c
    have z : |(0 : K)| ≤ r * |a| := by rw [abs_zero]; positivity
    unfold aitken1
    dsimp only
    split_ifs with c1 c2
    · have ha : 0 < |a| := abs_pos.2 c2.2.1
      have := c2.2.2
      rw [abs_div, div_lt_iff₀ ha] at this
      exact this.le
    · exact z
    · exact z

/-- C121 (finding): on a geometric sequence x_k = L + c qᵏ, where the Δ² process is exact, the step the code adds to the newest point is computed from the two oldest differences: it lands at
L + c q^(k−2) (q² − 1) instead of L, which for q² < 1/2 is farther from the limit than the point it started from. With the guesses passed oldest first the same function gives the limit. -/
theorem C121_aitken_geometric [IsStrictOrderedRing K] {L c q r : K} {k : ℕ} (hk : 2 ≤ k) (hc : c ≠ 0) (hq : q ≠ 0) (hq1 : q ≠ 1) (hx : L + c * q ^ k ≠ 0) (hx' : L + c * q ^ (k - 2) ≠ 0)
    (hr : |c * q ^ (k - 2)| < r * |L + c * q ^ k|) (hr' : |c * q ^ k| < r * |L + c * q ^ (k - 2)|) :
    (L + c * q ^ k) + aitken1 r (L + c * q ^ k) (L + c * q ^ (k - 1)) (L + c * q ^ (k - 2)) = L + c * q ^ (k - 2) * (q ^ 2 - 1) ∧
    (q ^ 2 < 1 / 2 → |c * q ^ k| < |c * q ^ (k - 2) * (q ^ 2 - 1)|) ∧
    (L + c * q ^ k) + aitken1 r (L + c * q ^ (k - 2)) (L + c * q ^ (k - 1)) (L + c * q ^ k) = L := by
  obtain ⟨m, rfl⟩ : ∃ m, k = m + 2 := ⟨k - 2, by omega⟩
  rw [show m + 2 - 2 = m by omega] at *
  rw [show m + 2 - 1 = m + 1 by omega]
  have hqm : q ^ m ≠ 0 := pow_ne_zero _ hq
  have h1 : q - 1 ≠ 0 := sub_ne_zero.2 hq1
  obtain ⟨b, hb⟩ : ∃ b, b = c * q ^ m := ⟨_, rfl⟩
  have hb0 : b ≠ 0 := by rw [hb]; exact mul_ne_zero hc hqm
  have e1 : c * q ^ (m + 1) = b * q := by rw [hb]; ring
  have e2 : c * q ^ (m + 2) = b * q ^ 2 := by rw [hb]; ring
  rw [e1, e2, ← hb]
  rw [e2] at hx hr hr'
  rw [← hb] at hx' hr hr'
  have den : (L + b - (L + b * q)) - (L + b * q - (L + b * q ^ 2)) = b * (q - 1) ^ 2 := by ring
  have den' : (L + b * q ^ 2 - (L + b * q)) - (L + b * q - (L + b)) = b * (q - 1) ^ 2 := by ring
  have d0 : b * (q - 1) ^ 2 ≠ 0 := mul_ne_zero hb0 (pow_ne_zero _ h1)
  have ch : -(L + b - (L + b * q)) * (L + b - (L + b * q)) / (b * (q - 1) ^ 2) = -b := by field_simp; ring
  have ch' : -(L + b * q ^ 2 - (L + b * q)) * (L + b * q ^ 2 - (L + b * q)) / (b * (q - 1) ^ 2) = -(b * q ^ 2) := by field_simp; ring
  refine ⟨?_, ?_, ?_⟩
  · unfold aitken1
    dsimp only
    rw [den, if_pos d0, ch, if_pos ⟨neg_ne_zero.2 hb0, hx, by rw [abs_div, abs_neg, div_lt_iff₀ (abs_pos.2 hx)]; exact hr⟩]
    ring
  · intro hlt
    have q2 : 0 < q ^ 2 := by positivity
    rw [abs_mul, abs_mul, abs_of_pos q2, abs_of_neg (by linarith : q ^ 2 - 1 < 0)]
    have : 0 < |b| := abs_pos.2 hb0
    exact mul_lt_mul_of_pos_left (by linarith) this
  · unfold aitken1
    dsimp only
    rw [den', if_pos d0, ch', if_pos ⟨neg_ne_zero.2 (mul_ne_zero hb0 (pow_ne_zero _ hq)), hx', by rw [abs_div, abs_neg, div_lt_iff₀ (abs_pos.2 hx')]; exact hr'⟩]
    ring

example : (1 : ℚ) + (1/2)^4 + aitken1 20 (1 + (1/2)^4) (1 + (1/2)^3) (1 + (1/2)^2) = 1 - (1/2)^2 * (3/4) := by
  have := (C121_aitken_geometric (L := (1 : ℚ)) (c := 1) (q := 1/2) (r := 20) (k := 4) (by norm_num) (by norm_num) (by norm_num) (by norm_num) (by norm_num) (by norm_num) (by norm_num) (by norm_num)).1
  norm_num at this ⊢
  exact this

lemma dotL_zero_left {a b : List K} (h : ∀ v ∈ a, v = 0) : dotL a b = 0 := by
  have : ∀ l : List K, (∀ v ∈ l, v = 0) → l.foldl (· + ·) 0 = 0 := by
    intro l
    induction l with
    | nil => simp
    | cons x l ih => intro hl; rw [List.foldl_cons, hl x (by simp), add_zero]; exact ih fun v hv => hl v (by simp [hv])
  unfold dotL
  apply this
  intro v hv
  obtain ⟨i, hi, rfl⟩ := List.getElem_of_mem hv
  rw [List.getElem_zipWith, h _ (List.getElem_mem _), zero_mul]

/-- C121: when the last two guesses agree (the iteration has converged) the general dominant eigenvalue step is zero, whatever the older guesses are. -/
theorem C121_gdem_stationary {r : K} (x x2 x3 : List K) (i : ℕ) : (gdem r x x x2 x3).getD i 0 = 0 := by
  have z : ∀ v ∈ subL x x, v = 0 := by
    intro v hv
    unfold subL at hv
    obtain ⟨i, hi, rfl⟩ := List.getElem_of_mem hv
    rw [List.getElem_zipWith, sub_self]
  have hd : ∀ b, dotL (subL x x) b = 0 := fun b => dotL_zero_left z
  have dm : ∀ y, (dem x x y).getD i 0 = 0 := by
    intro y
    unfold dem
    dsimp only
    rw [if_pos (hd _)]
    simp [List.getD, List.getElem?_replicate]
    split_ifs <;> rfl
  have g0 : ∀ j, (subL x x).getD j 0 = 0 := by
    intro j
    rw [List.getD]
    match h : (subL x x)[j]? with
    | none => rfl
    | some v => exact z v (List.mem_of_getElem? h)
  unfold gdem
  dsimp only
  rw [hd, hd]
  split_ifs with c1 c2
  · exact dm x2
  · exact dm x2
  · simp only [zero_mul, sub_self, sub_zero, mul_zero, g0, List.getD, List.getElem?_map]
    match (List.range x.length)[i]? with
    | none => rfl
    | some j => simpa [List.getD] using g0 j

/-! ### Anderson acceleration -/

lemma foldl_add (l : List K) (a : K) : l.foldl (· + ·) a = a + l.sum := by
  induction l generalizing a with
  | nil => simp
  | cons b l ih => rw [List.foldl_cons, ih, List.sum_cons, add_assoc]

/-- C121: the weights sum to one, or a zero sum raises. -/
theorem C121_weights {alpha w : List K} : (alpha.sum = 0 → weights alpha = .error .valueError) ∧ (weights alpha = .ok w → w.sum = 1 ∧ w.length = alpha.length) := by
  have s : ∀ (l : List K) (t : K), (l.map fun a => a / t).sum = l.sum / t := fun l t => by
    simp only [div_eq_mul_inv]; exact (List.sum_map_mul_right l (fun a => a) t⁻¹).trans (by simp)
  unfold weights
  rw [foldl_add, zero_add]
  dsimp only
  constructor
  · intro h; rw [if_pos h]
  · intro h
    split_ifs at h with c1 c2
    · obtain rfl := Except.ok.inj h
      refine ⟨?_, by simp⟩
      rw [show (fun a : K => -a / -alpha.sum) = fun a => a / alpha.sum by funext a; rw [neg_div_neg_eq], s, div_self c1]
    · obtain rfl := Except.ok.inj h
      exact ⟨by rw [s, div_self c1], by simp⟩

/-- combining equal vectors multiplies by the weights actually used -/
lemma combine_const {c : List K} : ∀ (w : List K) (xs gs : List (List K)) (acc : List K) (k : ℕ), xs.length = k → k ≤ w.length → k ≤ gs.length → (∀ g ∈ gs, g = c) → acc.length ≤ c.length →
    combine 1 w xs gs acc = (List.range acc.length).map fun i => acc.getD i 0 + (w.take k).sum * c.getD i 0 := by
  intro w xs
  induction xs generalizing w with
  | nil =>
    intro gs acc k hk _ _ _ _
    obtain rfl : k = 0 := by simpa using hk.symm
    have : combine 1 w [] gs acc = acc := by
      match w, gs with
      | [], _ => rfl
      | _ :: _, [] => rfl
      | _ :: _, _ :: _ => rfl
    rw [this]
    apply List.ext_getElem
    · simp
    · intro i h1 h2; simp [h1]
  | cons x xs ih =>
    intro gs acc k hk hw hg hc ha
    obtain ⟨k, rfl⟩ : ∃ m, k = m + 1 := ⟨xs.length, by simpa using hk.symm⟩
    match w, gs, hw, hg with
    | a :: w, g :: gs, hw, hg =>
      rw [combine]
      obtain rfl := hc g (by simp)
      rw [ih w gs _ k (by simpa using hk) (by simpa using hw) (by simpa using hg) (fun v hv => hc v (by simp [hv])) (by simpa using ha)]
      apply List.ext_getElem
      · simp
      · intro i h1 h2
        have hi : i < acc.length := by simpa using h1
        simp only [List.getElem_map, List.getElem_range, List.length_map, List.length_range, List.take_succ_cons, List.sum_cons]
        simp [List.getD, hi]
        ring

/-- C121 (finding): the accelerated step has one more residual than stored points, and `zip` drops the weight of the newest one. With full mixing, when every evaluation returned the same vector `c` —
the iteration has reached the fixed point — the accelerated point is not `c` but `(1 − w) c` with `w` the weight of the newest residual. When the lists have one length it is `c`. -/
theorem C121_anderson_weights {coef : List (List K) → Py (List K)} {residuals xh gh : List (List K)} {alpha w c p : List K} (hne : ∀ x ∈ xh.head?, x.length = c.length)
    (hgh : ∀ g ∈ gh, g = c) (hlen : gh.length = alpha.length) (ha : coef residuals = .ok alpha) (hw : weights alpha = .ok w) (h : compute_accelerated_step coef 1 residuals xh gh = .ok p) :
    (xh.length = alpha.length → p = c) ∧ (xh.length + 1 = alpha.length → p = c.map fun v => (1 - w.getLastD 0) * v) := by
  unfold compute_accelerated_step at h
  rw [ha, Py.ok_bind, hw, Py.ok_bind] at h
  obtain ⟨hs, hl⟩ := C121_weights.2 hw
  match xh, h, hne with
  | x :: xs, h, hne =>
    obtain rfl := Except.ok.inj h
    have hx : x.length = c.length := hne x (by simp)
    have e : ∀ t : K, ((List.range (List.replicate x.length (0 : K)).length).map fun i => (List.replicate x.length (0 : K)).getD i 0 + t * c.getD i 0) = c.map fun v => t * v := by
      intro t
      apply List.ext_getElem
      · simp [hx]
      · intro i h1 h2
        have hi : i < c.length := by simpa using h2
        have hi' : i < x.length := by omega
        simp [List.getD, hi, hi']
    constructor
    · intro hk
      rw [combine_const w (x :: xs) gh _ (x :: xs).length rfl (by omega) (by omega) hgh (by simp [hx]), e, List.take_of_length_le (by omega), hs]
      simp
    · intro hk
      rw [combine_const w (x :: xs) gh _ (x :: xs).length rfl (by omega) (by omega) hgh (by simp [hx]), e]
      have hw0 : w ≠ [] := by rintro rfl; simp at hs
      have : (w.take (x :: xs).length).sum = 1 - w.getLastD 0 := by
        have h1 : w.dropLast = w.take (x :: xs).length := by rw [List.dropLast_eq_take]; congr 1; omega
        have h2 := congrArg List.sum (List.dropLast_append_getLast hw0)
        rw [List.sum_append, List.sum_singleton, hs, h1] at h2
        rw [List.getLastD_eq_getLast?, List.getLast?_eq_getLast_of_ne_nil hw0]
        simp only [Option.getD_some]
        rw [← h2]; ring
      rw [this]

/-- C121: the limit of an accelerated step: each component is the blend of the damped and the accelerated one, the share of the latter rising to 1 over `phase_in_steps` steps, cut off at a distance
`|x (1 - max_step_size)|` from the last one. (Finding: a component that is zero cannot be changed by an accelerated step.) -/
theorem C121_anderson_limit [IsStrictOrderedRing K] {o : AndersonOpts K} {w it : ℕ} {xh gh rh xh' gh' rh' : List (List K)} {x xn acc : List K} (hi : o.initial_iterations ≤ it)
    (h : andersonPoint o w it xh gh rh x xn = .ok (acc, xh', gh', rh')) :
    acc.length = x.length ∧ xh'.getLast? = some acc ∧ 0 < o.phase_in_steps ∧ ∃ raw q, anderson_step o.coef o.mixing w xh gh rh xn = .ok (raw, q) ∧
      ∀ (i : ℕ) (hi' : i < acc.length) (hx : i < x.length),
        let s : K := min 1 (((it - o.initial_iterations + 1 : ℕ) : K) / (o.phase_in_steps : K))
        let plain := (1 - o.damping) * x[i] + o.damping * xn.getD i 0
        let fast := (1 - o.acc_damping) * x[i] + o.acc_damping * raw.getD i 0
        let limit := |x[i] * (1 - o.max_step_size)|;
        acc[i] = max (x[i] - limit) (min (x[i] + limit) ((1 - s) * plain + s * fast)) ∧ |acc[i] - x[i]| ≤ limit ∧ (x[i] = 0 → acc[i] = 0) := by
  unfold andersonPoint at h
  rw [if_neg (not_lt.2 hi)] at h
  obtain ⟨r, hr, h⟩ := Py.bind_eq_ok.1 h
  split_ifs at h with hp
  have h := Except.ok.inj h
  simp only [Prod.mk.injEq] at h
  obtain ⟨rfl, rfl, rfl, rfl⟩ := h
  refine ⟨by simp, by simp, Nat.pos_of_ne_zero hp, r.1, r.2, hr, fun i h1 h2 => ?_⟩
  have key : ∀ s a b c : K, blended o s a b c = max (a - |a * (1 - o.max_step_size)|) (min (a + |a * (1 - o.max_step_size)|) ((1 - s) * ((1 - o.damping) * a + o.damping * b) + s * ((1 - o.acc_damping) * a + o.acc_damping * c))) := by
    intro s a b c
    unfold blended fpStep
    dsimp only
    generalize (1 - s) * ((1 - o.damping) * a + o.damping * b) + s * ((1 - o.acc_damping) * a + o.acc_damping * c) = v
    have hm := abs_nonneg (a * (1 - o.max_step_size))
    generalize |a * (1 - o.max_step_size)| = m at *
    split_ifs with c1 c2
    · rw [abs_of_pos c2] at c1
      rw [min_eq_left (by linarith), max_eq_right (by linarith)]; ring
    · rw [abs_of_nonpos (not_lt.1 c2)] at c1
      rw [min_eq_right (by linarith [not_lt.1 c2]), max_eq_left (by linarith)]; ring
    · have := abs_le.1 (not_lt.1 c1)
      rw [min_eq_right (by linarith), max_eq_right (by linarith)]
  have bd : ∀ a m v : K, 0 ≤ m → |max (a - m) (min (a + m) v) - a| ≤ m := by
    intro a m v hm
    rw [abs_le]
    exact ⟨by linarith [le_max_left (a - m) (min (a + m) v)], by linarith [max_le (show a - m ≤ a + m by linarith) (min_le_left (a + m) v)]⟩
  extract_lets s plain fast limit
  have e : ((List.range x.length).map fun i => blended o s (x.getD i 0) (xn.getD i 0) (r.1.getD i 0))[i]'(by simpa using h2) = max (x[i] - limit) (min (x[i] + limit) ((1 - s) * plain + s * fast)) := by
    rw [List.getElem_map, List.getElem_range, key, show x.getD i 0 = x[i] by simp [h2]]
  refine ⟨e, ?_, fun h0 => ?_⟩
  · rw [e]; exact bd _ _ _ (abs_nonneg _)
  · have hb := bd x[i] limit ((1 - s) * plain + s * fast) (abs_nonneg _)
    rw [← e] at hb
    have hl : limit = 0 := by simp only [limit, h0, zero_mul, abs_zero]
    rw [hl, h0, sub_zero] at hb
    exact abs_eq_zero.1 (le_antisymm hb (abs_nonneg _))

example : andersonPoint (K := ℚ) ⟨fun x => .ok x, fun _ => .ok [1], none, none, 9, false, 5, 1, 0, 9/10, 1, 3, 2⟩ 1 0 [] [] [] [1, 0] [9, 2] = .ok ([3, 0], [[3, 0]], [], []) := by
  decide +kernel

/-- C121 (finding): `fixed_point_anderson` reports no failure to meet `xtol`: if all iterations are used without meeting the tolerance the last point is returned (or, with a zero component, a division
by zero raised), because the final check compares the last point with itself. -/
theorem C121_anderson_silent [IsStrictOrderedRing K] {o : AndersonOpts K} {x0 F0 x : List K} {xt : K} (hx : o.xtol = some xt) (hy : o.ytol = none) (hxt : 0 ≤ xt) (hm : o.maxiter ≠ 0) (hF : o.f x0 = .ok F0)
    (hl : andersonLoop o (min F0.length o.window) (absSum F0) o.maxiter 0 [] [] [] x0 = .ok (.ranOut x)) :
    (x ≠ [] → (∀ v ∈ x, v ≠ 0) → fixed_point_anderson o x0 = .ok (x, o.maxiter - 1)) ∧ ((∃ v ∈ x, v = 0) → fixed_point_anderson o x0 = .error .zeroDivisionError) := by
  have e : fixed_point_anderson o x0 = andersonFinish o (absSum F0) x := by
    unfold fixed_point_anderson
    rw [hF, Py.ok_bind]
    dsimp only
    rw [if_neg (by rw [hx]; rintro ⟨h, -⟩; cases h), hl, Py.ok_bind]
  rw [e]
  unfold andersonFinish
  rw [if_neg hm]
  constructor
  · intro hne hv
    have r : relChange x x = .ok 0 := by
      unfold relChange
      rw [if_neg (by rintro ⟨v, h1, h2⟩; exact hv v h1 h2)]
      have : List.zipWith (fun a b : K => abs ((a - b) / abs b)) x x = List.replicate x.length 0 := by
        apply List.ext_getElem
        · simp
        · intro i h1 h2; simp
      rw [this]
      match x, hne with
      | a :: t, _ =>
        simp only [List.length_cons, List.replicate_succ]
        have : ∀ n : ℕ, (List.replicate n (0 : K)).foldl max 0 = 0 := by
          intro n
          induction n with
          | zero => rfl
          | succ n ih => rw [List.replicate_succ, List.foldl_cons, max_self, ih]
        rw [this]
    rw [r, Py.ok_bind, if_neg (by rw [hx]; rintro ⟨v, h1, h2⟩; obtain rfl := Option.some.inj h1; exact absurd h2 (not_lt.2 hxt)), if_neg (by rw [hy]; rintro ⟨v, h1, -⟩; cases h1)]
    rfl
  · intro hz
    unfold relChange
    rw [if_pos hz]
    rfl

/-- `g(x) = x + 1`, which has no fixed point -/
def fShift : List ℚ → Py (List ℚ) := fun x => .ok (x.map (· + 1))

/-- the options of the example: three damped iterations -/
def optsA : AndersonOpts ℚ := ⟨fShift, fun _ => .error .valueError, some (1/10^7), none, 3, false, 5, 1, 4, 9/10, 1, 10000, 3⟩

/-- whether the loop ran out at this point -/
def isOut (r : Py (AndersonEnd ℚ)) (x : List ℚ) : Bool :=
  match r with
  | .ok (.ranOut y) => decide (y = x)
  | _ => false

lemma isOut_eq {r : Py (AndersonEnd ℚ)} {x : List ℚ} (h : isOut r x = true) : r = .ok (.ranOut x) := by
  unfold isOut at h
  match r, h with
  | .ok (.ranOut y), h => rw [decide_eq_true_eq] at h; rw [h]

example : fixed_point_anderson optsA [1] = .ok ([37/10], 2) := by
  refine (C121_anderson_silent (o := optsA) (x0 := [1]) (F0 := [2]) (x := [37/10]) (xt := 1/10^7) rfl rfl (by norm_num) (by decide) (by decide +kernel) (isOut_eq (by decide +kernel))).1 (by simp) ?_
  intro v hv
  simp at hv
  rw [hv]; norm_num

/-- C121 (finding): the residual tolerance of `fixed_point_anderson` is compared with the sum of absolute function values at the start, in every iteration. If that sum is above `ytol` no point is ever
returned, even if the start is a fixed point; and `require_progress` with a `ytol` always raises. -/
theorem C121_anderson_ytol {o : AndersonOpts K} {x0 F0 : List K} {yt : K} (hy : o.ytol = some yt) (hF : o.f x0 = .ok F0) (hm : o.maxiter ≠ 0) :
    (yt < l1 F0 → ∀ r, fixed_point_anderson o x0 ≠ .ok r) ∧ (o.require_progress = true → ∀ r, fixed_point_anderson o x0 = .ok r → r = (x0, 0) ∧ l1 F0 < yt) := by
  have stop : yt < absSum F0 → ∀ acc x b, andersonStops o (absSum F0) acc x = .ok b → b = false := by
    intro hlt acc x b hb
    have hn : decide (absSum F0 < yt) = false := by simpa using hlt.le
    unfold andersonStops at hb
    rw [hy] at hb
    match hx : o.xtol, hb with
    | some xt, hb =>
      dsimp only at hb
      obtain ⟨e, -, hb⟩ := Py.bind_eq_ok.1 hb
      obtain rfl := Except.ok.inj hb
      rw [hn, Bool.and_false]
    | none, hb =>
      dsimp only at hb
      obtain rfl := Except.ok.inj hb
      exact hn
  have loop : yt < absSum F0 → ∀ n it xh gh rh x e, andersonLoop o (min F0.length o.window) (absSum F0) n it xh gh rh x = .ok e → ∃ y, e = .ranOut y := by
    intro hlt n
    induction n with
    | zero => intro it xh gh rh x e h; exact ⟨x, (Except.ok.inj h).symm⟩
    | succ n ih =>
      intro it xh gh rh x e h
      rw [andersonLoop] at h
      obtain ⟨xn, -, h⟩ := Py.bind_eq_ok.1 h
      obtain ⟨r, -, h⟩ := Py.bind_eq_ok.1 h
      by_cases c : o.require_progress = true ∧ o.ytol ≠ none
      · rw [if_pos c] at h; cases h
      rw [if_neg c] at h
      obtain ⟨b, hb, h⟩ := Py.bind_eq_ok.1 h
      rw [stop hlt _ _ _ hb] at h
      exact ih _ _ _ _ _ _ h
  constructor
  · intro hlt r h
    rw [← absSum_l1] at hlt
    unfold fixed_point_anderson at h
    rw [hF, Py.ok_bind] at h
    dsimp only at h
    rw [if_neg (by rintro ⟨-, v, h1, h2⟩; rw [hy] at h1; obtain rfl := Option.some.inj h1; exact lt_asymm hlt h2)] at h
    obtain ⟨e, he, h⟩ := Py.bind_eq_ok.1 h
    obtain ⟨y, rfl⟩ := loop hlt _ _ _ _ _ _ _ he
    dsimp only at h
    unfold andersonFinish at h
    rw [if_neg hm] at h
    obtain ⟨v, -, h⟩ := Py.bind_eq_ok.1 h
    split_ifs at h with c1 c2
    exact c2 ⟨yt, hy, hlt⟩
  · intro hp r h
    unfold fixed_point_anderson at h
    rw [hF, Py.ok_bind] at h
    dsimp only at h
    by_cases c : o.xtol = none ∧ ∃ yt ∈ o.ytol, absSum F0 < yt
    · rw [if_pos c] at h
      obtain ⟨v, h1, h2⟩ := c.2
      rw [hy] at h1
      obtain rfl := Option.some.inj h1
      exact ⟨(Except.ok.inj h).symm, by rw [← absSum_l1]; exact h2⟩
    rw [if_neg c] at h
    obtain ⟨e, he, h⟩ := Py.bind_eq_ok.1 h
    exfalso
    obtain ⟨n, hn⟩ : ∃ n, o.maxiter = n + 1 := ⟨o.maxiter - 1, by omega⟩
    rw [hn, andersonLoop] at he
    obtain ⟨xn, -, he⟩ := Py.bind_eq_ok.1 he
    obtain ⟨r, -, he⟩ := Py.bind_eq_ok.1 he
    rw [if_pos ⟨hp, by rw [hy]; simp⟩] at he
    cases he

/-- C121: what `fixed_point_anderson_residual` returns: the start, if only `ytol` is given and its residuals are below it, or a point one step away from a point whose residuals sum to no more than
either tolerance given, within `maxiter` iterations; it raises otherwise. -/
theorem C121_anderson_residual {f : List K → Py (List K)} {coef : List (List K) → Py (List K)} {xtol ytol : Option K} {window initial maxiter : ℕ} {damping acc_damping : K} {rp : Bool} {x0 x : List K}
    {n : ℕ} (h : fixed_point_anderson_residual f coef xtol ytol window initial maxiter damping acc_damping rp x0 = .ok (x, n)) :
    (x = x0 ∧ n = 0 ∧ ∃ F yt, f x0 = .ok F ∧ ytol = some yt ∧ l1 F < yt) ∨
    (n < maxiter ∧ ∃ y F w gh rh r, f y = .ok F ∧ (∀ xt ∈ xtol, l1 F ≤ xt) ∧ (∀ yt ∈ ytol, l1 F ≤ yt) ∧ residualPoint coef w initial n damping acc_damping gh rh y F = .ok r ∧ x = r.1 ∧
      (n < initial → x = List.zipWith (fun a b => a + -b * damping) y F)) := by
  have ini : ∀ w it gh rh y F r, residualPoint coef w initial it damping acc_damping gh rh y F = .ok r → it < initial → r.1 = List.zipWith (fun a b => a + -b * damping) y F := by
    intro w it gh rh y F r h hi
    unfold residualPoint at h
    dsimp only at h
    rw [if_pos hi] at h
    split_ifs at h <;> (obtain rfl := Except.ok.inj h; rfl)
  have loop : ∀ w m it gh rh y err0 err1, it + m = maxiter → (∀ e, err1 = some e → 0 < it ∧ ∃ y' F gh rh r, f y' = .ok F ∧ e = absSum F ∧ residualPoint coef w initial (it - 1) damping acc_damping gh rh y' F = .ok r ∧ y = r.1) →
      residualLoop f coef xtol ytol w initial maxiter damping acc_damping rp m it gh rh y err0 err1 = .ok (x, n) →
      n < maxiter ∧ ∃ y F gh rh r, f y = .ok F ∧ (∀ xt ∈ xtol, absSum F ≤ xt) ∧ (∀ yt ∈ ytol, absSum F ≤ yt) ∧ residualPoint coef w initial n damping acc_damping gh rh y F = .ok r ∧ x = r.1 := by
    intro w m
    induction m with
    | zero =>
      intro it gh rh y err0 err1 hit he h
      rw [residualLoop.eq_def] at h
      dsimp only at h
      match err1, he, h with
      | some e, he, h =>
        obtain ⟨hi, y', F, gh, rh, r, hf, hee, hr, hy⟩ := he e rfl
        dsimp only at h
        by_cases c1 : ∃ xt ∈ xtol, e > xt
        · rw [if_pos c1] at h; cases h
        rw [if_neg c1] at h
        by_cases c2 : ∃ yt ∈ ytol, e > yt
        · rw [if_pos c2] at h; cases h
        rw [if_neg c2] at h
        obtain ⟨rfl, rfl⟩ := Prod.mk.inj (Except.ok.inj h)
        refine ⟨by omega, y', F, gh, rh, r, hf, fun xt hx => ?_, fun yt hy => ?_, hr, hy⟩
        · rw [← hee]; by_contra hh; exact c1 ⟨xt, hx, not_le.1 hh⟩
        · rw [← hee]; by_contra hh; exact c2 ⟨yt, hy, not_le.1 hh⟩
      | none, he, h => cases h
    | succ m ih =>
      intro it gh rh y err0 err1 hit he h
      rw [residualLoop] at h
      obtain ⟨F, hF, h⟩ := Py.bind_eq_ok.1 h
      obtain ⟨r, hr, h⟩ := Py.bind_eq_ok.1 h
      dsimp only at h
      by_cases c1 : rp = true ∧ absSum F ≥ err0
      · rw [if_pos c1] at h; cases h
      rw [if_neg c1] at h
      by_cases c2 : residualStops xtol ytol (absSum F) = true
      · rw [if_pos c2] at h
        obtain ⟨rfl, rfl⟩ := Prod.mk.inj (Except.ok.inj h)
        have st : (∀ xt ∈ xtol, absSum F ≤ xt) ∧ (∀ yt ∈ ytol, absSum F ≤ yt) := by
          unfold residualStops at c2
          match xtol, ytol, c2 with
          | some xt, some yt, c2 =>
            simp only [Bool.and_eq_true, decide_eq_true_eq] at c2
            exact ⟨fun v hv => by obtain rfl := Option.some.inj hv; exact c2.1.le, fun v hv => by obtain rfl := Option.some.inj hv; exact c2.2.le⟩
          | some xt, none, c2 =>
            simp only [Bool.and_true, decide_eq_true_eq] at c2
            exact ⟨fun v hv => by obtain rfl := Option.some.inj hv; exact c2.le, fun v hv => by cases hv⟩
          | none, some yt, c2 =>
            simp only [decide_eq_true_eq] at c2
            exact ⟨fun v hv => by (cases hv), fun v hv => by obtain rfl := Option.some.inj hv; exact c2.le⟩
        exact ⟨by omega, y, F, gh, rh, r, hF, st.1, st.2, hr, rfl⟩
      · rw [if_neg c2] at h
        exact ih (it + 1) _ _ _ _ _ (by omega) (fun e he => ⟨by omega, y, F, gh, rh, r, hF, (Option.some.inj he).symm, hr, rfl⟩) h
  unfold fixed_point_anderson_residual at h
  obtain ⟨F, hF, h⟩ := Py.bind_eq_ok.1 h
  dsimp only at h
  by_cases c : xtol = none ∧ ∃ yt ∈ ytol, absSum F < yt
  · rw [if_pos c] at h
    obtain ⟨rfl, rfl⟩ := Prod.mk.inj (Except.ok.inj h)
    obtain ⟨yt, hy, hlt⟩ := c.2
    exact .inl ⟨rfl, rfl, F, yt, hF, hy, by rw [← absSum_l1]; exact hlt⟩
  · rw [if_neg c] at h
    obtain ⟨a, y, G, gh, rh, r, b1, b2, b3, b4, b5⟩ := loop _ _ _ _ _ _ _ _ (by omega) (fun e he => by cases he) h
    refine .inr ⟨a, y, G, _, gh, rh, r, b1, fun xt hx => by rw [← absSum_l1]; exact b2 xt hx, fun yt hy => by rw [← absSum_l1]; exact b3 yt hy, b4, b5, fun hi => ?_⟩
    rw [b5]
    exact ini _ _ _ _ _ _ _ b4 hi

example : ∃ x n, fixed_point_anderson_residual fHalf (fun r => .ok (r.map fun _ => 1)) none (some (1/10)) 5 3 20 1 1 false [10] = .ok (x, n) ∧ 2 < n :=
  ⟨_, _, isRes_eq (x := [33/16]) (n := 6) (by decide +kernel), by norm_num⟩

/-- C121: `residual_to_fixed_point` undoes `fixed_point_to_residual`. -/
theorem C121_negated (f : List K → Py (List K)) (x : List K) : negated (negated f) x = f x := by
  unfold negated
  match f x with
  | .error e => rfl
  | .ok d => simp [Py.ok_bind, List.map_map, Function.comp_def, Py.pure_eq]

lemma dotL_sum (a b : List K) : dotL a b = (List.zipWith (· * ·) a b).sum := by
  unfold dotL
  rw [foldl_add, zero_add]

lemma subL_map (a b : K) (L v : List K) (h : L.length = v.length) :
    subL (List.zipWith (fun l w => l + a * w) L v) (List.zipWith (fun l w => l + b * w) L v) = v.map fun w => (a - b) * w := by
  unfold subL
  apply List.ext_getElem
  · simp [h]
  · intro i h1 h2
    simp only [List.getElem_zipWith, List.getElem_map]
    ring

lemma dotL_map (a b : K) (v : List K) : dotL (v.map fun w => a * w) (v.map fun w => b * w) = a * b * (v.map fun w => w * w).sum := by
  rw [dotL_sum, List.zipWith_map_left, List.zipWith_map_right, List.zipWith_self, ← List.sum_map_mul_left]
  congr 1
  apply List.map_congr_left
  intro w _
  ring

/-- C121: the dominant eigenvalue step, used when the general one breaks down, jumps exactly to the limit of a sequence of vectors whose error shrinks by one factor `0 < q < 1` in every step.
When the error alternates (`q < 0`) the step has the wrong sign: the error doubles. -/
theorem C121_dem_geometric [IsStrictOrderedRing K] {L v : List K} {q : K} {k : ℕ} (hk : 2 ≤ k) (hl : L.length = v.length) (hv : ∃ w ∈ v, w ≠ 0) (hq : q ≠ 0) (hq1 : q < 1) :
    let x := fun n : ℕ => List.zipWith (fun l w => l + q ^ n * w) L v;
    (0 < q → List.zipWith (fun a b => a + b) (x k) (dem (x k) (x (k - 1)) (x (k - 2))) = L) ∧
    (q < 0 → List.zipWith (fun a b => a + b) (x k) (dem (x k) (x (k - 1)) (x (k - 2))) = List.zipWith (fun l w => l + 2 * (q ^ k * w)) L v) := by
  intro x
  obtain ⟨m, rfl⟩ : ∃ m, k = m + 2 := ⟨k - 2, by omega⟩
  rw [show m + 2 - 2 = m by omega, show m + 2 - 1 = m + 1 by omega]
  have hs : 0 < (v.map fun w => w * w).sum := by
    obtain ⟨w, hw, hw0⟩ := hv
    have hnn : ∀ y ∈ v.map (fun w => w * w), 0 ≤ y := by
      intro y hy
      obtain ⟨u, -, rfl⟩ := List.mem_map.1 hy
      exact mul_self_nonneg u
    refine lt_of_lt_of_le (mul_self_pos.2 hw0) ?_
    exact List.single_le_sum hnn _ (List.mem_map.2 ⟨w, hw, rfl⟩)
  have hqm : q ^ m ≠ 0 := pow_ne_zero _ hq
  have hq1' : q - 1 ≠ 0 := by linarith
  have hd : dem (x (m + 2)) (x (m + 1)) (x m) = v.map fun w => q ^ (m + 1) * (q - 1) * w * |q / (q - 1)| := by
    unfold dem
    dsimp only
    rw [subL_map _ _ L v hl, subL_map _ _ L v hl, dotL_map, dotL_map]
    have e0 : (q ^ (m + 2) - q ^ (m + 1)) * (q ^ (m + 2) - q ^ (m + 1)) * (v.map fun w => w * w).sum ≠ 0 := by
      rw [show q ^ (m + 2) - q ^ (m + 1) = q ^ m * q * (q - 1) by ring]
      exact mul_ne_zero (mul_ne_zero (mul_ne_zero (mul_ne_zero hqm hq) hq1') (mul_ne_zero (mul_ne_zero hqm hq) hq1')) hs.ne'
    have e1 : 1 - (q ^ (m + 1) - q ^ m) * (q ^ (m + 2) - q ^ (m + 1)) * (v.map fun w => w * w).sum / ((q ^ (m + 2) - q ^ (m + 1)) * (q ^ (m + 2) - q ^ (m + 1)) * (v.map fun w => w * w).sum) = (q - 1) / q := by
      have := hs.ne'
      generalize (v.map fun w => w * w).sum = S at *
      rw [show q ^ (m + 2) - q ^ (m + 1) = q ^ m * q * (q - 1) by ring, show q ^ (m + 1) - q ^ m = q ^ m * (q - 1) by ring]
      field_simp
    rw [if_neg e0, e1, if_neg (div_ne_zero hq1' hq), one_div_div, List.map_map]
    apply List.map_congr_left
    intro w _
    simp only [Function.comp]
    ring
  rw [hd]
  have hn : q - 1 < 0 := by linarith
  constructor
  · intro h0
    rw [abs_of_neg (div_neg_of_pos_of_neg h0 hn)]
    apply List.ext_getElem
    · simp [x, hl]
    · intro i h1 h2
      simp only [List.getElem_zipWith, List.getElem_map, x]
      field_simp
      ring
  · intro h0
    rw [abs_of_pos (div_pos_of_neg_of_neg h0 hn)]
    apply List.ext_getElem
    · simp [x, hl]
    · intro i h1 h2
      simp only [List.getElem_zipWith, List.getElem_map, x]
      field_simp
      ring

example : dem [(5/4 : ℚ), 2 + 3/4] [1 + 1/2, 2 + 3/2] [2, 5] = [-(1/4), -(3/4)] := by decide +kernel
example : ∃ w ∈ [(1 : ℚ), 3], w ≠ 0 := ⟨1, by simp, by norm_num⟩

/-- C121: an Anderson step keeps the histories within the window, whatever it is: as many residuals as evaluated points, at most `window + 1` of each, the newest last. -/
theorem C121_anderson_window {coef : List (List K) → Py (List K)} {m : K} {window : ℕ} {xh gh rh xh' gh' rh' : List (List K)} {x acc : List K} (hx : xh.length ≤ window + 1)
    (hr : rh.length ≤ window + 1) (hg : gh.length = rh.length) (h : anderson_step coef m window xh gh rh x = .ok (acc, xh', gh', rh')) :
    xh'.length = min (xh.length + 1) (window + 1) ∧ gh'.length = rh'.length ∧
    (xh = [] → acc = x ∧ xh' = [x] ∧ rh' = []) ∧
    (∀ p, xh.getLast? = some p → rh'.length = min (rh.length + 1) (window + 1) ∧ xh'.getLast? = some acc ∧ gh'.getLast? = some x ∧ rh'.getLast? = some (List.zipWith (fun a b => a - b) x p)) := by
  have tl : ∀ (l : List (List K)) (a : List K), l.length ≤ window + 1 → (trim (window + 1) (l ++ [a])).length = min (l.length + 1) (window + 1) ∧ (trim (window + 1) (l ++ [a])).getLast? = some a := by
    intro l a hla
    unfold trim
    split_ifs with c
    · simp only [List.length_append, List.length_cons, List.length_nil] at c
      have : l ≠ [] := by rintro rfl; simp at c
      obtain ⟨b, l', rfl⟩ := List.exists_cons_of_ne_nil this
      simp only [List.length_cons] at *
      refine ⟨by simp; omega, by simp⟩
    · simp only [List.length_append, List.length_cons, List.length_nil] at c
      refine ⟨by simp; omega, by simp⟩
  unfold anderson_step at h
  match hp : xh.getLast? with
  | none =>
    rw [hp] at h
    have h := Except.ok.inj h
    simp only [Prod.mk.injEq] at h
    obtain ⟨rfl, rfl, rfl, rfl⟩ := h
    rw [List.getLast?_eq_none_iff] at hp
    subst hp
    refine ⟨by simp, rfl, fun _ => ⟨rfl, rfl, rfl⟩, fun p h => by cases h⟩
  | some p =>
    rw [hp] at h
    dsimp only at h
    obtain ⟨a, -, h⟩ := Py.bind_eq_ok.1 h
    have h := Except.ok.inj h
    simp only [Prod.mk.injEq] at h
    obtain ⟨rfl, rfl, rfl, rfl⟩ := h
    have hr' := tl rh (subL x p) hr
    have hx' := tl xh a hx
    have hgl : (if (rh ++ [subL x p]).length > window + 1 then (gh ++ [x]).tail else gh ++ [x]) = trim (window + 1) (gh ++ [x]) := by
      unfold trim
      simp [hg]
    rw [hgl]
    have hg' := tl gh x (by omega)
    refine ⟨hx'.1, by rw [hg'.1, hr'.1, hg], fun e => by rw [e] at hp; simp at hp, fun p' h => ?_⟩
    obtain rfl := Option.some.inj h
    exact ⟨hr'.1, hx'.2, hg'.2, hr'.2⟩

example : anderson_step (K := ℚ) (fun _ => .ok [1]) 1 0 [[1]] [[2]] [[1]] [3] = .ok ([3], [[3]], [[3]], [[2]]) := by decide +kernel

end Verif.Accel
