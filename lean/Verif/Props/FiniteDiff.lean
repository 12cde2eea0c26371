import Verif.Model.FiniteDiff
import Mathlib.Data.List.GetD
import Mathlib.Algebra.Polynomial.Taylor
import Mathlib.Algebra.Polynomial.HasseDeriv
import Mathlib.Analysis.Calculus.Deriv.Polynomial
import Mathlib.Tactic

/-! C112: finite differences (`fluids/numerics/__init__.py`). -/

namespace Verif.FiniteDiff
open Verif

/-! ### Central differences -/

/-- The exact weights of the central difference rules: the solutions of the moment conditions of `C112_exact_weights`. -/
def exactTable : List ((ℕ × ℕ) × List ℚ) :=
  [((1, 3), [-1/2, 0, 1/2]),
   ((1, 5), [1/12, -2/3, 0, 2/3, -1/12]),
   ((1, 7), [-1/60, 3/20, -3/4, 0, 3/4, -3/20, 1/60]),
   ((1, 9), [1/280, -4/105, 1/5, -4/5, 0, 4/5, -1/5, 4/105, -1/280]),
   ((1, 11), [-1/1260, 5/504, -5/84, 5/21, -5/6, 0, 5/6, -5/21, 5/84, -5/504, 1/1260]),
   ((1, 13), [1/5544, -1/385, 1/56, -5/63, 15/56, -6/7, 0, 6/7, -15/56, 5/63, -1/56, 1/385, -1/5544]),
   ((1, 15), [-1/24024, 7/10296, -7/1320, 7/264, -7/72, 7/24, -7/8, 0, 7/8, -7/24, 7/72, -7/264, 7/1320, -7/10296, 1/24024]),
   ((1, 17), [1/102960, -8/45045, 2/1287, -56/6435, 7/198, -56/495, 14/45, -8/9, 0, 8/9, -14/45, 56/495, -7/198, 56/6435, -2/1287, 8/45045, -1/102960]),
   ((1, 19), [-1/437580, 9/194480, -9/20020, 2/715, -9/715, 63/1430, -7/55, 18/55, -9/10, 0, 9/10, -18/55, 7/55, -63/1430, 9/715, -2/715, 9/20020, -9/194480, 1/437580]),
   ((2, 3), [1, -2, 1]),
   ((2, 5), [-1/12, 4/3, -5/2, 4/3, -1/12]),
   ((2, 7), [1/90, -3/20, 3/2, -49/18, 3/2, -3/20, 1/90]),
   ((2, 9), [-1/560, 8/315, -1/5, 8/5, -205/72, 8/5, -1/5, 8/315, -1/560]),
   ((2, 11), [1/3150, -5/1008, 5/126, -5/21, 5/3, -5269/1800, 5/3, -5/21, 5/126, -5/1008, 1/3150]),
   ((2, 13), [-1/16632, 2/1925, -1/112, 10/189, -15/56, 12/7, -5369/1800, 12/7, -15/56, 10/189, -1/112, 2/1925, -1/16632]),
   ((2, 15), [1/84084, -7/30888, 7/3300, -7/528, 7/108, -7/24, 7/4, -266681/88200, 7/4, -7/24, 7/108, -7/528, 7/3300, -7/30888, 1/84084]),
   ((2, 17), [-1/411840, 16/315315, -2/3861, 112/32175, -7/396, 112/1485, -14/45, 16/9, -1077749/352800, 16/9, -14/45, 112/1485, -7/396, 112/32175, -2/3861, 16/315315, -1/411840]),
   ((2, 19), [1/1969110, -9/777920, 9/70070, -2/2145, 18/3575, -63/2860, 14/165, -18/55, 9/5, -9778141/3175200, 9/5, -18/55, 14/165, -63/2860, 18/3575, -2/2145, 9/70070, -9/777920, 1/1969110]),
   ((3, 5), [-1/2, 1, 0, -1, 1/2]),
   ((3, 7), [1/8, -1, 13/8, 0, -13/8, 1, -1/8]),
   ((3, 9), [-7/240, 3/10, -169/120, 61/30, 0, -61/30, 169/120, -3/10, 7/240])]

/-- `∑ w_k g(k)` over consecutive integers from `i`. -/
def wsum {R : Type _} [Semiring R] (g : ℤ → R) : ℤ → List R → R
  | _, [] => 0
  | i, w :: ws => w * g i + wsum g (i + 1) ws

/-- C112: the exact weights satisfy the moment conditions `∑ w_k k^j = n! δ_jn` for all `j < order`, and every cached literal is the exact weight to within 1.7e-16 of its size. -/
theorem C112_exact_weights : (∀ e ∈ exactTable, e.2.length = e.1.2 ∧ e.1.2 % 2 = 1 ∧ e.1.1 < e.1.2 ∧
      ∀ j < e.1.2, wsum (fun i => (i : ℚ) ^ j) (-((e.1.2 / 2 : ℕ) : ℤ)) e.2 = if j = e.1.1 then (e.1.1.factorial : ℚ) else 0) ∧
    weightTable.map Prod.fst = exactTable.map Prod.fst ∧
    List.Forall₂ (fun a e : (ℕ × ℕ) × List ℚ => a.1 = e.1 ∧ List.Forall₂ (fun w x : ℚ => |w - x| ≤ 1.7e-16 * |w|) a.2 e.2) weightTable exactTable := by
  refine ⟨?_, ?_, ?_⟩
  · decide +kernel
  · decide +kernel
  · decide +kernel

/-- Non-cached keys appear once: looking up an entry's key finds the entry. -/
lemma lookup_table : ∀ e ∈ weightTable, weightTable.lookup e.1 = some e.2 := by decide +kernel

lemma forall₂_mem {α β : Type _} {R : α → β → Prop} {l₁ : List α} {l₂ : List β} (h : List.Forall₂ R l₁ l₂) {a : α} (ha : a ∈ l₁) : ∃ b ∈ l₂, R a b := by
  induction h with
  | nil => simp at ha
  | cons hab _ ih =>
    rcases List.mem_cons.1 ha with rfl | ha
    · exact ⟨_, by simp, hab⟩
    · obtain ⟨b, hb, hr⟩ := ih ha
      exact ⟨b, by simp [hb], hr⟩

lemma pointLoop_eq (g : ℝ → ℝ) (x0 dx : ℝ) : ∀ (ws : List ℝ) (tot : ℝ) (i : ℤ),
    pointLoop (fun x => .ok (g x)) x0 dx tot i ws = .ok (tot + wsum (fun i : ℤ => g (x0 + i * dx)) i ws)
  | [], tot, i => by simp [pointLoop, wsum]
  | w :: ws, tot, i => by
    rw [pointLoop, wsum]
    by_cases h : w = 0
    · rw [if_neg (not_not.2 h), pointLoop_eq g x0 dx ws, h]; simp
    · rw [if_pos h, Py.ok_bind, pointLoop_eq g x0 dx ws, add_assoc]

lemma wsum_sum {s : Finset ℕ} (c : ℕ → ℝ) (g : ℕ → ℤ → ℝ) : ∀ (ws : List ℝ) (i : ℤ), wsum (fun i => ∑ j ∈ s, c j * g j i) i ws = ∑ j ∈ s, c j * wsum (g j) i ws
  | [], i => by simp [wsum]
  | w :: ws, i => by
    rw [wsum, wsum_sum c g ws, Finset.mul_sum, ← Finset.sum_add_distrib]
    refine Finset.sum_congr rfl fun j _ => ?_
    rw [wsum]; ring

lemma wsum_cast (j : ℕ) : ∀ (ws : List ℚ) (i : ℤ), wsum (fun i : ℤ => (i : ℝ) ^ j) i (ws.map fun q : ℚ => (q : ℝ)) = ((wsum (fun i : ℤ => (i : ℚ) ^ j) i ws : ℚ) : ℝ)
  | [], i => by simp [wsum]
  | w :: ws, i => by
    rw [List.map_cons, wsum, wsum, wsum_cast j ws]
    push_cast; rfl

lemma wsum_diff (g : ℤ → ℝ) {ε : ℝ} : ∀ {ws xs : List ℝ}, List.Forall₂ (fun w x : ℝ => |w - x| ≤ ε * |w|) ws xs → ∀ i : ℤ,
    |wsum g i ws - wsum g i xs| ≤ ε * wsum (fun i => |g i|) i (ws.map fun w => |w|)
  | _, _, .nil, i => by simp [wsum]
  | _, _, .cons (a := w) (b := x) (l₁ := ws) (l₂ := xs) h ht, i => by
    rw [List.map_cons, wsum, wsum, wsum]
    have ih := wsum_diff g ht (i + 1)
    have e : w * g i + wsum g (i + 1) ws - (x * g i + wsum g (i + 1) xs) = (w - x) * g i + (wsum g (i + 1) ws - wsum g (i + 1) xs) := by ring
    rw [e]
    refine (abs_add_le _ _).trans ?_
    rw [abs_mul, mul_add]
    have := mul_le_mul_of_nonneg_right h (abs_nonneg (g i))
    linarith

/-- With weights that satisfy the moment conditions, the weighted sum over a polynomial is `dx^n` times the derivative. -/
lemma wsum_exact (p : Polynomial ℝ) (x0 dx : ℝ) (n order : ℕ) (i0 : ℤ) (ws : List ℝ) (hp : p.natDegree < order) (hn : n < order)
    (hm : ∀ j < order, wsum (fun i : ℤ => (i : ℝ) ^ j) i0 ws = if j = n then (n.factorial : ℝ) else 0) :
    wsum (fun i : ℤ => p.eval (x0 + i * dx)) i0 ws = (Polynomial.derivative^[n] p).eval x0 * dx ^ n := by
  have hev : (fun i : ℤ => p.eval (x0 + i * dx)) = fun i : ℤ => ∑ j ∈ Finset.range order, ((Polynomial.taylor x0 p).coeff j * dx ^ j) * (i : ℝ) ^ j := by
    funext i
    have h1 : p.eval (x0 + i * dx) = (Polynomial.taylor x0 p).eval (i * dx) := by rw [Polynomial.taylor_eval, add_comm]
    rw [h1, Polynomial.eval_eq_sum_range' (n := order) (by rw [Polynomial.natDegree_taylor]; exact hp)]
    refine Finset.sum_congr rfl fun j _ => ?_
    rw [mul_pow]; ring
  rw [hev, wsum_sum]
  rw [Finset.sum_eq_single n]
  · rw [hm n hn, if_pos rfl, Polynomial.taylor_coeff]
    have := congrArg (fun L => (L p).eval x0) (Polynomial.factorial_smul_hasseDeriv (R := ℝ) n)
    simp only [LinearMap.smul_apply, Pi.smul_apply] at this
    rw [← this]
    rw [Polynomial.eval_smul, nsmul_eq_mul]
    ring
  · intro j hj hne
    rw [hm j (Finset.mem_range.1 hj), if_neg hne, mul_zero]
  · intro h; exact absurd (Finset.mem_range.2 hn) h

lemma derivative_cached (ext : ℕ → ℕ → Py (List ℝ)) (g : ℝ → ℝ) (x0 dx : ℝ) (hdx : dx ≠ 0) {n order : ℕ} {w : List ℚ} (hw : ((n, order), w) ∈ weightTable) :
    derivative ext (fun x => .ok (g x)) x0 dx n order =
      .ok (wsum (fun i : ℤ => g (x0 + i * dx)) (-((order / 2 : ℕ) : ℤ)) (w.map fun q : ℚ => (q : ℝ)) * (1 / dx ^ n)) := by
  unfold derivative weights
  have := lookup_table _ hw
  simp only at this
  simp only [this]
  rw [Py.ok_bind, pdiv_ok (pow_ne_zero n hdx), Py.ok_bind, pointLoop_eq, Py.ok_bind, zero_add]
  rfl

/-- C112: on a polynomial of degree below `order`, `derivative` with a cached rule returns its `n`-th derivative, up to the rounding (1.7e-16 relative) of the cached weights. -/
theorem C112_derivative (ext : ℕ → ℕ → Py (List ℝ)) (p : Polynomial ℝ) (x0 dx : ℝ) (hdx : dx ≠ 0) (n order : ℕ) (w : List ℚ) (hw : ((n, order), w) ∈ weightTable) (hp : p.natDegree < order) :
    ∃ v, derivative ext (fun x => .ok (p.eval x)) x0 dx n order = .ok v ∧
      |v - (Polynomial.derivative^[n] p).eval x0| ≤ 1.7e-16 * wsum (fun i : ℤ => |p.eval (x0 + i * dx)|) (-((order / 2 : ℕ) : ℤ)) (w.map fun q : ℚ => |(q : ℝ)|) / |dx| ^ n := by
  refine ⟨_, derivative_cached ext _ x0 dx hdx hw, ?_⟩
  obtain ⟨hex, -, hfa⟩ := C112_exact_weights
  obtain ⟨⟨key, xs⟩, hmem, hkey, hclose⟩ := forall₂_mem hfa hw
  simp only at hkey hclose
  obtain ⟨hlen, -, hn, hmom⟩ := hex _ hmem
  simp only at hlen hn hmom
  subst hkey
  simp only at hlen hn hmom
  have hexact := wsum_exact p x0 dx n order (-((order / 2 : ℕ) : ℤ)) (xs.map fun q : ℚ => (q : ℝ)) hp hn (by
    intro j hj
    rw [wsum_cast, hmom j hj]
    split_ifs <;> norm_num)
  have hdn : 0 < |dx| ^ n := pow_pos (abs_pos.2 hdx) n
  have hd0 : dx ^ n ≠ 0 := pow_ne_zero n hdx
  have hcl : List.Forall₂ (fun w x : ℝ => |w - x| ≤ 1.7e-16 * |w|) (w.map fun q : ℚ => (q : ℝ)) (xs.map fun q : ℚ => (q : ℝ)) := by
    rw [List.forall₂_map_left_iff, List.forall₂_map_right_iff]
    refine hclose.imp fun a b h => ?_
    have : ((|a - b| : ℚ) : ℝ) ≤ ((1.7e-16 * |a| : ℚ) : ℝ) := by exact_mod_cast h
    push_cast at this
    exact this
  have hdiff := wsum_diff (fun i : ℤ => p.eval (x0 + i * dx)) hcl (-((order / 2 : ℕ) : ℤ))
  rw [List.map_map] at hdiff
  have e : wsum (fun i : ℤ => p.eval (x0 + i * dx)) (-((order / 2 : ℕ) : ℤ)) (w.map fun q : ℚ => (q : ℝ)) * (1 / dx ^ n) - (Polynomial.derivative^[n] p).eval x0 =
      (wsum (fun i : ℤ => p.eval (x0 + i * dx)) (-((order / 2 : ℕ) : ℤ)) (w.map fun q : ℚ => (q : ℝ)) -
        wsum (fun i : ℤ => p.eval (x0 + i * dx)) (-((order / 2 : ℕ) : ℤ)) (xs.map fun q : ℚ => (q : ℝ))) / dx ^ n := by
    rw [hexact]
    generalize wsum (fun i : ℤ => p.eval (x0 + i * dx)) (-((order / 2 : ℕ) : ℤ)) (w.map fun q : ℚ => (q : ℝ)) = S
    field_simp
  rw [e, abs_div, abs_pow, div_le_div_iff_of_pos_right hdn]
  exact hdiff

/-- C112: the rules with 3 points (first and second derivative) and with 5 and 7 points (third derivative) are exact. -/
theorem C112_derivative_exact (ext : ℕ → ℕ → Py (List ℝ)) (p : Polynomial ℝ) (x0 dx : ℝ) (hdx : dx ≠ 0) (n order : ℕ) (hk : (n, order) ∈ [(1, 3), (2, 3), (3, 5), (3, 7)]) (hp : p.natDegree < order) :
    derivative ext (fun x => .ok (p.eval x)) x0 dx n order = .ok ((Polynomial.derivative^[n] p).eval x0) := by
  have h : ∃ w, ((n, order), w) ∈ weightTable ∧ ((n, order), w) ∈ exactTable := by
    have : ∀ k ∈ [((1, 3) : ℕ × ℕ), (2, 3), (3, 5), (3, 7)], ∃ e ∈ weightTable, e ∈ exactTable ∧ e.1 = k := by decide +kernel
    obtain ⟨⟨k, w⟩, h1, h2, h3⟩ := this _ hk
    simp only at h3
    subst h3
    exact ⟨w, h1, h2⟩
  obtain ⟨w, h1, h2⟩ := h
  obtain ⟨hlen, -, hn, hmom⟩ := C112_exact_weights.1 _ h2
  simp only at hlen hn hmom
  have hexact := wsum_exact p x0 dx n order (-((order / 2 : ℕ) : ℤ)) (w.map fun q : ℚ => (q : ℝ)) hp hn (by
    intro j hj
    rw [wsum_cast, hmom j hj]
    split_ifs <;> norm_num)
  rw [derivative_cached ext _ x0 dx hdx h1, hexact]
  have hd0 : dx ^ n ≠ 0 := pow_ne_zero n hdx
  congr 1
  field_simp

-- the 3-point rule on x² - 3x + 1 at 2
example (ext : ℕ → ℕ → Py (List ℝ)) : derivative ext (fun x => .ok (x ^ 2 - 3 * x + 1)) 2 0.1 = .ok 1 := by
  rw [derivative_cached ext (fun x => x ^ 2 - 3 * x + 1) 2 0.1 (by norm_num) (n := 1) (order := 3) (w := [-0.5, 0, 0.5]) (by decide +kernel)]
  norm_num [wsum]

lemma pointLoop_congr (f f' : ℝ → Py ℝ) (x0 dx : ℝ) : ∀ (ws : List ℝ) (tot : ℝ) (i : ℤ), (∀ k : ℕ, k < ws.length → f (x0 + ((i + k : ℤ) : ℝ) * dx) = f' (x0 + ((i + k : ℤ) : ℝ) * dx)) →
    pointLoop f x0 dx tot i ws = pointLoop f' x0 dx tot i ws
  | [], tot, i, _ => rfl
  | w :: ws, tot, i, h => by
    have h0 := h 0 (by simp)
    simp only [Nat.cast_zero, add_zero] at h0
    have ht : ∀ tot, pointLoop f x0 dx tot (i + 1) ws = pointLoop f' x0 dx tot (i + 1) ws := fun tot => pointLoop_congr f f' x0 dx ws tot (i + 1) fun k hk => by
      have := h (k + 1) (by simpa using hk)
      rw [show i + ((k + 1 : ℕ) : ℤ) = i + 1 + k by push_cast; ring] at this
      exact this
    rw [pointLoop, pointLoop, h0]
    by_cases hw : w = 0
    · rw [if_neg (not_not.2 hw), if_neg (not_not.2 hw), ht]
    · rw [if_pos hw, if_pos hw]
      congr 1
      funext y
      exact ht _

lemma table_shape : ∀ e ∈ weightTable, e.2.length = e.1.2 ∧ e.1.2 % 2 = 1 ∧ 1 ≤ e.1.1 := by decide +kernel

/-- C112: with an upper (lower) limit that the base point respects, the function is never evaluated beyond the limit: functions that agree on the allowed side give the same result. -/
theorem C112_limits (ext : ℕ → ℕ → Py (List ℝ)) (f f' : ℝ → Py ℝ) (x0 dx l : ℝ) (hdx : 0 < dx) (n order : ℕ) (w : List ℚ) (hw : ((n, order), w) ∈ weightTable) :
    (x0 ≤ l → (∀ x ≤ l, f x = f' x) → derivative ext f x0 dx n order none (some l) = derivative ext f' x0 dx n order none (some l)) ∧
    (l ≤ x0 → (∀ x ≥ l, f x = f' x) → derivative ext f x0 dx n order (some l) none = derivative ext f' x0 dx n order (some l) none) := by
  obtain ⟨hlen, hodd, -⟩ := table_shape _ hw
  simp only at hlen hodd
  have hl := lookup_table _ hw
  simp only at hl
  obtain ⟨m, hm⟩ : ∃ m, order = 2 * m + 1 := ⟨order / 2, by omega⟩
  have hm2 : order / 2 = m := by omega
  constructor
  · intro hx hf
    unfold derivative weights
    simp only [hl, Py.ok_bind]
    congr 1
    funext d
    congr 1
    refine pointLoop_congr _ _ _ _ _ _ _ fun k hk => hf _ ?_
    rw [List.length_map, hlen] at hk
    have hk' : (k : ℝ) ≤ 2 * m := by
      have : k ≤ 2 * m := by omega
      exact_mod_cast this
    have ho : ((order : ℕ) : ℝ) = 2 * m + 1 := by rw [hm]; push_cast; ring
    simp only [shiftUp, shiftDown, hm2, ho]
    push_cast
    have h1 : (-(m : ℝ) + k) * dx ≤ m * dx := mul_le_mul_of_nonneg_right (by linarith) hdx.le
    split_ifs with h2
    · have e : x0 - (x0 + (2 * (m : ℝ) + 1 - 1 - m) * dx - x0) = x0 - m * dx := by ring
      rw [e]; linarith
    · have e : x0 + (2 * (m : ℝ) + 1 - 1 - m) * dx = x0 + m * dx := by ring
      rw [e] at h2
      linarith
  · intro hx hf
    unfold derivative weights
    simp only [hl, Py.ok_bind]
    congr 1
    funext d
    congr 1
    refine pointLoop_congr _ _ _ _ _ _ _ fun k hk => hf _ ?_
    simp only [shiftUp, shiftDown, hm2]
    push_cast
    have hk0 : (0 : ℝ) ≤ k := Nat.cast_nonneg k
    have h1 : -(m : ℝ) * dx ≤ (-(m : ℝ) + k) * dx := mul_le_mul_of_nonneg_right (by linarith) hdx.le
    split_ifs with h2
    · have e : x0 + (x0 - (x0 + -(m : ℝ) * dx)) = x0 + m * dx := by ring
      rw [e]; linarith
    · have := not_lt.1 h2
      linarith

/-- C112 (finding): a limit moves the base point, so that the value returned is the derivative at another point: x² at 1 with an upper limit of 1 gives 1.8. -/
theorem C112_limit_shift (ext : ℕ → ℕ → Py (List ℝ)) : derivative ext (fun x => .ok (x ^ 2)) 1 0.1 1 3 none (some 1) = .ok 1.8 ∧ derivative ext (fun x => .ok (x ^ 2)) 1 0.1 1 3 = .ok 2 := by
  have hl : weightTable.lookup (1, 3) = some [-0.5, 0, 0.5] := by decide +kernel
  constructor
  · unfold derivative weights
    simp only [hl]
    rw [Py.ok_bind, pdiv_ok (by norm_num), Py.ok_bind, pointLoop_eq]
    simp only [shiftDown, shiftUp]
    norm_num [wsum]
  · unfold derivative weights
    simp only [hl]
    rw [Py.ok_bind, pdiv_ok (by norm_num), Py.ok_bind, pointLoop_eq]
    simp only [shiftDown, shiftUp]
    norm_num [wsum]

/-- C112: errors. A zero step raises ZeroDivisionError with every cached rule; a rule that is not cached raises ValueError when it has an even number of points or too few. -/
theorem C112_derivative_errors (ext : ℕ → ℕ → Py (List ℝ)) (f : ℝ → Py ℝ) (x0 dx : ℝ) (n order : ℕ) (lo up : Option ℝ) :
    (∀ w, ((n, order), w) ∈ weightTable → derivative ext f x0 0 n order lo up = .error .zeroDivisionError) ∧
    (order < n + 1 ∨ order % 2 = 0 → derivative ext f x0 dx n order lo up = .error .valueError) := by
  constructor
  · intro w hw
    obtain ⟨-, -, hn⟩ := table_shape _ hw
    have hl := lookup_table _ hw
    simp only at hl hn
    unfold derivative weights
    simp only [hl]
    rw [Py.ok_bind, zero_pow (by omega), pdiv_zero]
    rfl
  · intro h
    have hl : weightTable.lookup (n, order) = none := by
      rw [List.lookup_eq_none_iff]
      intro e he
      have h1 := table_shape e he
      have h2 := C112_exact_weights.1
      have h3 : ∀ e ∈ weightTable, e.1.1 < e.1.2 := by decide +kernel
      have h4 := h3 e he
      rw [bne_iff_ne]
      intro hc
      rw [← hc] at h1 h4
      simp only at h1 h4
      omega
    unfold derivative weights
    simp only [hl]
    by_cases h1 : order < n + 1
    · rw [if_pos h1]; rfl
    · rw [if_neg h1, if_pos (by omega)]; rfl

/-! ### Gradients -/

variable {K : Type _} [Field K] [DecidableEq K]

/-- `x` with `d` added to its `i`-th entry. -/
def bump (x : List K) (i : ℕ) (d : K) : List K := x.modify i (· + d)

lemma step_ne {p z : K} (hz : z ≠ 0) (x : K) : step p z x ≠ 0 := by
  unfold step
  simp only
  split_ifs with h
  · exact hz
  · exact h

omit [DecidableEq K] in
lemma bump_restore (x : List K) (i : ℕ) (d : K) : (bump x i d).modify i (· - d) = x := by
  unfold bump
  rw [List.modify_modify_eq]
  have : ((fun y : K => y - d) ∘ fun y => y + d) = id := by funext y; simp
  rw [this, List.modify_id]

lemma gradLoop_eq (F : List K → K) (b p z : K) (hz : z ≠ 0) (x0 : List K) : ∀ is : List ℕ,
    gradLoop (fun x => .ok (F x)) b p z x0 x0 is = .ok (is.map fun i => (F (bump x0 i (step p z (x0.getD i 0))) - b) / step p z (x0.getD i 0))
  | [] => rfl
  | i :: is => by
    rw [gradLoop]
    simp only
    rw [Py.ok_bind, pdiv_ok (step_ne hz _), Py.ok_bind]
    have := bump_restore x0 i (step p z (x0.getD i 0))
    unfold bump at this
    rw [this, gradLoop_eq F b p z hz x0 is]
    rfl

/-- C112: `jacobian` of a scalar function returns its forward differences, each variable moved alone by `perturbation` times its value, or by `zero_offset` when that is zero. -/
theorem C112_jacobian (F : List K → K) (x0 : List K) (p z : K) (hz : z ≠ 0) :
    jacobian (fun x => .ok (F x)) x0 p z = .ok ((List.range x0.length).map fun i => (F (bump x0 i (step p z (x0.getD i 0))) - F x0) / step p z (x0.getD i 0)) := by
  unfold jacobian
  exact gradLoop_eq F (F x0) p z hz x0 _

omit [DecidableEq K] in
lemma getD_bump (x : List K) (i k : ℕ) (d : K) (hi : i < x.length) : (bump x i d).getD k 0 = x.getD k 0 + if k = i then d else 0 := by
  unfold bump
  by_cases hk : k < x.length
  · rw [List.getD_eq_getElem _ _ (by simpa using hk), List.getD_eq_getElem _ _ hk, List.getElem_modify]
    by_cases h : i = k
    · rw [if_pos h, if_pos h.symm]
    · rw [if_neg h, if_neg (Ne.symm h), add_zero]
  · rw [List.getD_eq_default _ _ (by simpa using not_lt.1 hk), List.getD_eq_default _ _ (not_lt.1 hk), if_neg (by omega), add_zero]

/-- C112: on an affine function `c + ∑ bᵢ xᵢ` of any number of variables, `jacobian` returns the coefficients exactly, at every point. -/
theorem C112_jacobian_affine (c : K) (b : ℕ → K) (x0 : List K) (p z : K) (hz : z ≠ 0) :
    jacobian (fun x => .ok (c + ∑ i ∈ Finset.range x0.length, b i * x.getD i 0)) x0 p z = .ok ((List.range x0.length).map b) := by
  rw [C112_jacobian _ _ _ _ hz]
  congr 1
  refine List.map_congr_left fun i hi => ?_
  have hi' := List.mem_range.1 hi
  rw [div_eq_iff (step_ne hz _)]
  simp only [getD_bump _ _ _ _ hi', mul_add, Finset.sum_add_distrib, mul_ite, mul_zero]
  rw [Finset.sum_ite_eq' (Finset.range x0.length) i, if_pos (Finset.mem_range.2 hi')]
  ring

example : jacobian (fun x : List ℚ => .ok (3 * x.getD 0 0 - 2 * x.getD 1 0)) [5, 0] (1 / 10) (1 / 100) = .ok [3, -2] := by decide +kernel

lemma gradLoopV_eq (F : List K → List K) (b : List K) (p z : K) (hz : z ≠ 0) (x0 : List K) : ∀ is : List ℕ,
    gradLoopV (fun x => .ok (F x)) b p z x0 x0 is =
      .ok (is.map fun i => List.zipWith (fun q b => 1 / step p z (x0.getD i 0) * (q - b)) (F (bump x0 i (step p z (x0.getD i 0)))) b)
  | [] => rfl
  | i :: is => by
    rw [gradLoopV]
    simp only
    rw [Py.ok_bind, pdiv_ok (step_ne hz _), Py.ok_bind]
    have := bump_restore x0 i (step p z (x0.getD i 0))
    unfold bump at this
    rw [this, gradLoopV_eq F b p z hz x0 is]
    rfl

omit [Field K] [DecidableEq K] in
lemma zipStar_map (m : ℕ) (g : ℕ → ℕ → K) : ∀ is : List ℕ, is ≠ [] → zipStar (is.map fun i => (List.range m).map (g i)) = (List.range m).map fun k => is.map fun i => g i k
  | [], h => absurd rfl h
  | [i], _ => by simp [zipStar]
  | i :: i' :: is, _ => by
    have ih := zipStar_map m g (i' :: is) (by simp)
    rw [List.map_cons] at ih
    rw [List.map_cons, List.map_cons, zipStar, ih]
    · rw [List.zipWith_map, List.zipWith_self]; rfl
    · simp

/-- C112: on an affine map with `m` outputs, `jacobian(scalar=False)` returns its matrix, one row per output. -/
theorem C112_jacobian_vector_affine (m : ℕ) (c : ℕ → K) (A : ℕ → ℕ → K) (x0 : List K) (hx : x0 ≠ []) (p z : K) (hz : z ≠ 0) :
    jacobianV (fun x => .ok ((List.range m).map fun k => c k + ∑ i ∈ Finset.range x0.length, A k i * x.getD i 0)) x0 p z =
      .ok ((List.range m).map fun k => (List.range x0.length).map fun i => A k i) := by
  unfold jacobianV
  simp only [Py.ok_bind]
  rw [gradLoopV_eq (fun x => (List.range m).map fun k => c k + ∑ i ∈ Finset.range x0.length, A k i * x.getD i 0) _ p z hz x0, Py.ok_bind]
  show Except.ok _ = Except.ok _
  congr 1
  rw [← zipStar_map m (fun i k => A k i) (List.range x0.length) (by simpa using hx)]
  congr 1
  refine List.map_congr_left fun i hi => ?_
  have hi' := List.mem_range.1 hi
  rw [List.zipWith_map, List.zipWith_self]
  refine List.map_congr_left fun k _ => ?_
  have h0 := step_ne (p := p) hz (x0.getD i 0)
  simp only [getD_bump _ _ _ _ hi', mul_add, Finset.sum_add_distrib, mul_ite, mul_zero]
  rw [Finset.sum_ite_eq' (Finset.range x0.length) i, if_pos (Finset.mem_range.2 hi')]
  field_simp
  ring

/-! ### Second derivatives -/

omit [DecidableEq K] in
lemma set_eq_bump (x : List K) (i : ℕ) (d : K) (hi : i < x.length) : x.set i (x.getD i 0 + d) = bump x i d := by
  unfold bump
  apply List.ext_getElem
  · simp
  · intro k h1 h2
    have hg := List.getD_eq_getElem x (0 : K) hi
    rw [List.getElem_set, List.getElem_modify]
    by_cases h : i = k
    · subst h; rw [if_pos rfl, if_pos rfl, hg]
    · simp [h]

omit [DecidableEq K] in
lemma set_restore (x : List K) (i : ℕ) (a : K) (hi : i < x.length) : (x.set i a).set i (x.getD i 0) = x := by
  rw [List.set_set, List.getD_eq_getElem _ _ hi, List.set_getElem_self]

omit [DecidableEq K] in
lemma length_bump (x : List K) (i : ℕ) (d : K) : (bump x i d).length = x.length := by simp [bump]

lemma singleLoop_eq (F : List K → K) (ds x : List K) : ∀ is : List ℕ, (∀ i ∈ is, i < x.length) →
    singleLoop (fun x => .ok (F x)) ds x is = .ok (is.map fun i => F (bump x i (ds.getD i 0)))
  | [], _ => rfl
  | i :: is, h => by
    have hi := h i (by simp)
    rw [singleLoop]
    simp only
    rw [Py.ok_bind, set_restore x i _ hi, singleLoop_eq F ds x is (fun k hk => h k (by simp [hk])), set_eq_bump x i _ hi]
    rfl

/-- The mixed second difference of `F` at `x` for steps `d` in variable `i` and `e` in variable `j`. -/
def secondDiff (F : List K → K) (x : List K) (i j : ℕ) (d e : K) : K := F (bump (bump x i d) j e) + F x - (F (bump x i d) + F (bump x j e))

omit [DecidableEq K] in
lemma bump_bump_self (x : List K) (i : ℕ) (d : K) (hi : i < x.length) : (bump x i d).set i (x.getD i 0 + 2 * d) = bump (bump x i d) i d := by
  rw [← set_eq_bump (bump x i d) i d (by rwa [length_bump]), getD_bump _ _ _ _ hi, if_pos rfl]
  congr 1
  ring

lemma innerLoop_eq (F : List K → K) (b : K) (ds dis fs x : List K) (i : ℕ) (hi : i < x.length) : ∀ js : List ℕ, (∀ j ∈ js, j < x.length) →
    innerLoop (fun x => .ok (F x)) b ds dis fs i (x.getD i 0) (bump x i (ds.getD i 0)) js =
      .ok (js.map fun j => ((F (bump (bump x i (ds.getD i 0)) j (ds.getD j 0)) + b) - (fs.getD i 0 + fs.getD j 0)) * dis.getD j 0 * dis.getD i 0)
  | [], _ => rfl
  | j :: js, h => by
    have hj := h j (by simp)
    have hj' : j < (bump x i (ds.getD i 0)).length := by rwa [length_bump]
    rw [innerLoop]
    simp only
    rw [Py.ok_bind]
    have e : (if i = j then (bump x i (ds.getD i 0)).set j (x.getD i 0 + 2 * ds.getD j 0) else (bump x i (ds.getD i 0)).set j ((bump x i (ds.getD i 0)).getD j 0 + ds.getD j 0)) =
        bump (bump x i (ds.getD i 0)) j (ds.getD j 0) := by
      by_cases hij : i = j
      · subst hij; rw [if_pos rfl, bump_bump_self x i _ hi]
      · rw [if_neg hij, set_eq_bump _ _ _ hj']
    rw [e]
    have e2 : (bump (bump x i (ds.getD i 0)) j (ds.getD j 0)).set j ((bump x i (ds.getD i 0)).getD j 0) = bump x i (ds.getD i 0) := by
      rw [← set_eq_bump (bump x i (ds.getD i 0)) j _ hj', set_restore _ _ _ hj']
    rw [e2, innerLoop_eq F b ds dis fs x i hi js (fun k hk => h k (by simp [hk]))]
    rfl

lemma outerLoop_eq (F : List K → K) (b : K) (ds dis fs x : List K) : ∀ is : List ℕ, (∀ i ∈ is, i < x.length) →
    outerLoop (fun x => .ok (F x)) b ds dis fs x is =
      .ok (is.map fun i => (List.range (i + 1)).map fun j => ((F (bump (bump x i (ds.getD i 0)) j (ds.getD j 0)) + b) - (fs.getD i 0 + fs.getD j 0)) * dis.getD j 0 * dis.getD i 0)
  | [], _ => rfl
  | i :: is, h => by
    have hi := h i (by simp)
    rw [outerLoop]
    simp only
    rw [set_eq_bump x i _ hi, innerLoop_eq F b ds dis fs x i hi _ (fun j hj => lt_of_le_of_lt (Nat.lt_succ_iff.1 (List.mem_range.1 hj)) hi), Py.ok_bind]
    have : (bump x i (ds.getD i 0)).set i (x.getD i 0) = x := by rw [← set_eq_bump x i _ hi, set_restore x i _ hi]
    rw [this, outerLoop_eq F b ds dis fs x is (fun k hk => h k (by simp [hk]))]
    rfl

lemma mapM_inv : ∀ ds : List K, (∀ d ∈ ds, d ≠ 0) → ds.mapM (fun d => pdiv 1 d) = .ok (ds.map fun d => 1 / d)
  | [], _ => rfl
  | d :: ds, h => by
    rw [List.mapM_cons, pdiv_ok (h d (by simp)), mapM_inv ds (fun e he => h e (by simp [he]))]
    rfl

/-- C112: `hessian(full=False)` of a scalar function returns the rows of the lower triangle of its mixed second differences, divided by the two steps. -/
theorem C112_hessian_rows (F : List K → K) (x0 : List K) (p z : K) (hz : z ≠ 0) :
    hessian (fun x => .ok (F x)) x0 p z false = .ok ((List.range x0.length).map fun i => (List.range (i + 1)).map fun j =>
      secondDiff F x0 i j (step p z (x0.getD i 0)) (step p z (x0.getD j 0)) / (step p z (x0.getD i 0) * step p z (x0.getD j 0))) := by
  unfold hessian
  simp only [Py.ok_bind]
  rw [mapM_inv _ (by intro d hd; obtain ⟨x, -, rfl⟩ := List.mem_map.1 hd; exact step_ne hz x), Py.ok_bind,
    singleLoop_eq F _ x0 _ (fun i hi => List.mem_range.1 hi), Py.ok_bind, outerLoop_eq F _ _ _ _ x0 _ (fun i hi => List.mem_range.1 hi), Py.ok_bind]
  show Except.ok _ = Except.ok _
  congr 1
  simp only [Bool.false_eq_true, if_false]
  refine List.map_congr_left fun i hi => List.map_congr_left fun j hj => ?_
  have hi' := List.mem_range.1 hi
  have hj' : j < x0.length := lt_of_le_of_lt (Nat.lt_succ_iff.1 (List.mem_range.1 hj)) hi'
  have d1 : ∀ k < x0.length, (x0.map (step p z)).getD k 0 = step p z (x0.getD k 0) := by
    intro k hk
    rw [List.getD_eq_getElem _ _ (by simpa using hk), List.getElem_map, List.getD_eq_getElem _ _ hk]
  have d2 : ∀ k < x0.length, ((x0.map (step p z)).map fun d => 1 / d).getD k 0 = 1 / step p z (x0.getD k 0) := by
    intro k hk
    rw [List.getD_eq_getElem _ _ (by simpa using hk), List.getElem_map, List.getElem_map, List.getD_eq_getElem _ _ hk]
  have d3 : ∀ k < x0.length, ((List.range x0.length).map fun i => F (bump x0 i ((x0.map (step p z)).getD i 0))).getD k 0 = F (bump x0 k (step p z (x0.getD k 0))) := by
    intro k hk
    rw [List.getD_eq_getElem _ _ (by simpa using hk), List.getElem_map, List.getElem_range, d1 k hk]
  rw [d1 i hi', d1 j hj', d2 i hi', d2 j hj', d3 i hi', d3 j hj']
  have h1 := step_ne (p := p) hz (x0.getD i 0)
  have h2 := step_ne (p := p) hz (x0.getD j 0)
  unfold secondDiff
  field_simp

/-- A quadratic function of `n` variables. -/
def quadratic (n : ℕ) (c : K) (b : ℕ → K) (Q : ℕ → ℕ → K) (y : ℕ → K) : K :=
  c + ∑ i ∈ Finset.range n, b i * y i + ∑ i ∈ Finset.range n, ∑ j ∈ Finset.range n, Q i j * y i * y j

omit [DecidableEq K] in
lemma quadratic_second (n : ℕ) (c : K) (b : ℕ → K) (Q : ℕ → ℕ → K) (y : ℕ → K) (i j : ℕ) (hi : i < n) (hj : j < n) (d e : K) :
    quadratic n c b Q (fun k => y k + (if k = i then d else 0) + (if k = j then e else 0)) + quadratic n c b Q y -
      (quadratic n c b Q (fun k => y k + if k = i then d else 0) + quadratic n c b Q (fun k => y k + if k = j then e else 0)) = (Q i j + Q j i) * (d * e) := by
  have key : ∀ u v : ℕ → K, quadratic n c b Q (fun k => y k + u k + v k) + quadratic n c b Q y - (quadratic n c b Q (fun k => y k + u k) + quadratic n c b Q (fun k => y k + v k)) =
      (∑ k ∈ Finset.range n, ∑ l ∈ Finset.range n, Q k l * u k * v l) + ∑ k ∈ Finset.range n, ∑ l ∈ Finset.range n, Q k l * v k * u l := by
    intro u v
    unfold quadratic
    simp only [mul_add, add_mul, Finset.sum_add_distrib]
    ring
  rw [key]
  have s1 : ∀ (i j : ℕ) (d e : K), i < n → j < n → ∑ k ∈ Finset.range n, ∑ l ∈ Finset.range n, Q k l * (if k = i then d else 0) * (if l = j then e else 0) = Q i j * d * e := by
    intro i j d e hi hj
    rw [Finset.sum_eq_single i, Finset.sum_eq_single j]
    · simp
    · intro l _ hl; simp [hl]
    · intro h; exact absurd (Finset.mem_range.2 hj) h
    · intro k _ hk; simp [hk]
    · intro h; exact absurd (Finset.mem_range.2 hi) h
  rw [s1 i j d e hi hj, s1 j i e d hj hi]
  ring

/-- C112: on a quadratic function of any number of variables, `hessian` returns the exact matrix of second derivatives `Q + Qᵀ`, at every point and for every non-zero offset. -/
theorem C112_hessian_quadratic (c : K) (b : ℕ → K) (Q : ℕ → ℕ → K) (x0 : List K) (p z : K) (hz : z ≠ 0) :
    hessian (fun x => .ok (quadratic x0.length c b Q (fun k => x.getD k 0))) x0 p z = .ok ((List.range x0.length).map fun i => (List.range x0.length).map fun j => Q i j + Q j i) ∧
    hessian (fun x => .ok (quadratic x0.length c b Q (fun k => x.getD k 0))) x0 p z false = .ok ((List.range x0.length).map fun i => (List.range (i + 1)).map fun j => Q i j + Q j i) := by
  have h2 : hessian (fun x => .ok (quadratic x0.length c b Q (fun k => x.getD k 0))) x0 p z false = .ok ((List.range x0.length).map fun i => (List.range (i + 1)).map fun j => Q i j + Q j i) := by
    rw [C112_hessian_rows (fun x => quadratic x0.length c b Q (fun k => x.getD k 0)) x0 p z hz]
    congr 1
    refine List.map_congr_left fun i hi => List.map_congr_left fun j hj => ?_
    have hi' := List.mem_range.1 hi
    have hj' : j < x0.length := lt_of_le_of_lt (Nat.lt_succ_iff.1 (List.mem_range.1 hj)) hi'
    rw [div_eq_iff (mul_ne_zero (step_ne hz _) (step_ne hz _))]
    unfold secondDiff
    have hb : ∀ d : K, j < (bump x0 i d).length := fun d => by rw [length_bump]; exact hj'
    generalize step p z (x0.getD i 0) = d
    generalize step p z (x0.getD j 0) = e
    simp only [fun k => getD_bump x0 i k d hi', fun k => getD_bump x0 j k e hj', fun k => getD_bump (bump x0 i d) j k e (hb d)]
    exact quadratic_second x0.length c b Q (fun k => x0.getD k 0) i j hi' hj' _ _
  refine ⟨?_, h2⟩
  unfold hessian at h2 ⊢
  obtain ⟨b0, hb, h2⟩ := Py.bind_eq_ok.1 h2
  rw [hb, Py.ok_bind]
  dsimp only at h2 ⊢
  obtain ⟨di, hdi, h2⟩ := Py.bind_eq_ok.1 h2
  rw [hdi, Py.ok_bind]
  obtain ⟨fs, hfs, h2⟩ := Py.bind_eq_ok.1 h2
  rw [hfs, Py.ok_bind]
  obtain ⟨rows, hrows, h2⟩ := Py.bind_eq_ok.1 h2
  rw [hrows, Py.ok_bind]
  simp only [Bool.false_eq_true, if_false, if_true, Py.pure_eq] at h2 ⊢
  rw [Except.ok.inj h2]
  congr 1
  unfold symmetric
  simp only [List.length_map, List.length_range]
  refine List.map_congr_left fun i hi => List.map_congr_left fun j hj => ?_
  have hi' := List.mem_range.1 hi
  have hj' := List.mem_range.1 hj
  have row : ∀ i < x0.length, ∀ j ≤ i, ((((List.range x0.length).map fun i => (List.range (i + 1)).map fun j => Q i j + Q j i).getD i []).getD j 0) = Q i j + Q j i := by
    intro i hi j hj
    rw [List.getD_eq_getElem ((List.range x0.length).map _) _ (by simpa using hi), List.getElem_map, List.getElem_range,
      List.getD_eq_getElem _ _ (by simp; omega), List.getElem_map, List.getElem_range]
  by_cases h : j ≤ i
  · rw [if_pos h, row i hi' j h]
  · rw [if_neg h, row j hj' i (by omega), add_comm]

example : hessian (fun x : List ℚ => .ok (x.getD 0 0 ^ 2 + 3 * x.getD 0 0 * x.getD 1 0)) [5, 0] (1 / 10) (1 / 100) = .ok [[2, 3], [3, 0]] := by decide +kernel

end Verif.FiniteDiff
