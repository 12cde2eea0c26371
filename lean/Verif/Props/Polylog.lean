import Verif.Model.Polylog
import Mathlib.Analysis.Calculus.Deriv.MeanValue
import Mathlib.Analysis.Calculus.Deriv.Inv
import Mathlib.Analysis.SpecificLimits.Basic
import Mathlib.Data.Rat.Cast.Order

/-! # C139: the dilogarithm -/

namespace Verif.Polylog
open Verif.PolyEval

noncomputable section

/-! ### Specification -/

/-- the dilogarithm, for arguments from 0 to 1 -/
def dilog (x : ℝ) : ℝ := ∑' k : ℕ, x ^ (k + 1) / ((k : ℝ) + 1) ^ 2

/-! ### Auxiliary: polynomials as lists of rationals, lowest power first -/

def ev (l : List ℚ) (x : ℝ) : ℝ := l.foldr (fun (c : ℚ) acc => (c : ℝ) + x * acc) 0

@[simp] theorem ev_nil (x : ℝ) : ev [] x = 0 := rfl
@[simp] theorem ev_cons (c : ℚ) (l : List ℚ) (x : ℝ) : ev (c :: l) x = c + x * ev l x := rfl

end

def addA : List ℚ → List ℚ → List ℚ
  | [], m => m
  | l, [] => l
  | a :: l, b :: m => (a + b) :: addA l m

def scaleA (k : ℚ) (l : List ℚ) : List ℚ := l.map (k * ·)

def mulA : List ℚ → List ℚ → List ℚ
  | [], _ => []
  | a :: l, m => addA (scaleA a m) (0 :: mulA l m)

def compA (u v : ℚ) : List ℚ → List ℚ
  | [] => []
  | c :: l => addA [c] (mulA [u, v] (compA u v l))

def derA : List ℚ → List ℚ
  | [] => []
  | _ :: l => addA l (0 :: derA l)

/-- the polynomial `(1 + t)^d r(t/(1 + t))` and the power of `1 + t` -/
def bernT : List ℚ → List ℚ × List ℚ
  | [] => ([], [1])
  | [c] => ([c], [1])
  | c :: l => let r := bernT l; let w := mulA [1, 1] r.2; (addA (scaleA c w) (0 :: r.1), w)

theorem ev_addA (l m : List ℚ) (x : ℝ) : ev (addA l m) x = ev l x + ev m x := by
  fun_induction addA l m with
  | case1 m => simp
  | case2 l _ => simp
  | case3 a l b m ih => simp only [ev_cons, ih]; push_cast; ring

theorem ev_scaleA (k : ℚ) (l : List ℚ) (x : ℝ) : ev (scaleA k l) x = k * ev l x := by
  induction l with
  | nil => simp [scaleA]
  | cons c l ih => simp only [scaleA, List.map_cons, ev_cons] at ih ⊢; rw [ih]; push_cast; ring

theorem ev_mulA (l m : List ℚ) (x : ℝ) : ev (mulA l m) x = ev l x * ev m x := by
  induction l with
  | nil => simp [mulA]
  | cons c l ih => rw [mulA, ev_addA, ev_scaleA, ev_cons, ih, ev_cons]; push_cast; ring

theorem ev_compA (u v : ℚ) (l : List ℚ) (x : ℝ) : ev (compA u v l) x = ev l (u + v * x) := by
  induction l with
  | nil => simp [compA]
  | cons c l ih => rw [compA, ev_addA, ev_mulA, ih]; simp only [ev_cons, ev_nil]; ring

theorem ev_hasDerivAt (l : List ℚ) (x : ℝ) : HasDerivAt (ev l) (ev (derA l) x) x := by
  induction l with
  | nil => exact hasDerivAt_const x 0
  | cons c l ih =>
    have h := ((hasDerivAt_id x).mul ih).const_add (c : ℝ)
    refine (h.congr_deriv ?_)
    rw [derA, ev_addA, ev_cons]
    simp

theorem ev_nonneg {l : List ℚ} (h : ∀ c ∈ l, 0 ≤ c) {x : ℝ} (hx : 0 ≤ x) : 0 ≤ ev l x := by
  induction l with
  | nil => simp
  | cons c l ih =>
    have h1 : (0 : ℝ) ≤ c := by exact_mod_cast h c (by simp)
    have h2 := ih fun d hd => h d (by simp [hd])
    rw [ev_cons]; positivity

/-- all coefficients nonnegative, the first positive -/
def posA : List ℚ → Bool
  | [] => false
  | c :: l => decide (0 < c) && l.all fun d => decide (0 ≤ d)

theorem ev_pos {l : List ℚ} (h : posA l = true) {x : ℝ} (hx : 0 ≤ x) : 0 < ev l x := by
  cases l with
  | nil => simp [posA] at h
  | cons c l =>
    simp only [posA, Bool.and_eq_true, decide_eq_true_eq, List.all_eq_true] at h
    have h1 : (0 : ℝ) < c := by exact_mod_cast h.1
    have h2 := ev_nonneg h.2 hx
    rw [ev_cons]; positivity

theorem ev_bernT (l : List ℚ) {t : ℝ} (ht : 0 ≤ t) : ev (bernT l).2 t = (1 + t) ^ (l.length - 1) ∧ ev (bernT l).1 t = (1 + t) ^ (l.length - 1) * ev l (t / (1 + t)) := by
  have h1 : (1 + t) ≠ 0 := by positivity
  fun_induction bernT l with
  | case1 => simp
  | case2 c => simp
  | case3 c l hl r w ih =>
    obtain ⟨e1, e2⟩ := ih
    have hlen : l.length - 1 + 1 = l.length := by
      cases l with
      | nil => exact absurd rfl hl
      | cons _ _ => simp
    have hw : ev w t = (1 + t) ^ l.length := by
      rw [show w = mulA [1, 1] r.2 from rfl, ev_mulA, show ev r.2 t = _ from e1, ← hlen, pow_succ]
      simp only [ev_cons, ev_nil]; push_cast; ring_nf
    refine ⟨by rw [hw]; simp, ?_⟩
    rw [ev_addA, ev_scaleA, hw, ev_cons, show ev r.1 t = _ from e2, ev_cons, List.length_cons, Nat.add_sub_cancel]
    have : (1 + t) ^ l.length = (1 + t) ^ (l.length - 1) * (1 + t) := by rw [← pow_succ, hlen]
    rw [this]
    field_simp
    push_cast
    ring

/-- the Bernstein test for a polynomial on the interval from 0 to 1 -/
def bernOK (l : List ℚ) : Bool := (bernT l).1.all (fun c => decide (0 ≤ c)) && decide (0 ≤ l.foldr (fun c acc => c + acc) 0)

theorem ev_one (l : List ℚ) : ev l 1 = ((l.foldr (fun c acc => c + acc) 0 : ℚ) : ℝ) := by
  induction l with
  | nil => simp
  | cons c l ih => rw [ev_cons, ih, List.foldr_cons]; push_cast; ring

theorem bern_nonneg {l : List ℚ} (h : bernOK l = true) {u : ℝ} (h0 : 0 ≤ u) (h1 : u ≤ 1) : 0 ≤ ev l u := by
  simp only [bernOK, Bool.and_eq_true, decide_eq_true_eq, List.all_eq_true] at h
  rcases h1.eq_or_lt with rfl | h1
  · rw [ev_one]; exact_mod_cast h.2
  · have hu : 0 < 1 - u := by linarith
    have ht : 0 ≤ u / (1 - u) := by positivity
    have e := (ev_bernT l ht).2
    have hn := ev_nonneg h.1 ht
    have : u / (1 - u) / (1 + u / (1 - u)) = u := by field_simp; ring
    rw [e, this] at hn
    exact nonneg_of_mul_nonneg_right hn (by positivity)

theorem horner_ev (p : List ℚ) (x : ℝ) : horner (p.map fun c : ℚ => (c : ℝ)) x = ev p.reverse x := by
  rw [horner, ev, List.foldr_reverse, List.foldl_map]
  congr 1
  funext a c
  ring

/-! ### Pieces -/

/-- numerator or denominator as a polynomial in the distance `s` below the upper end of a piece -/
def fromTop (p : List ℚ) (offset b : ℚ) : List ℚ := compA (b - offset) (-1) p.reverse

theorem ev_fromTop (p : List ℚ) (offset b : ℚ) (x : ℝ) : ev (fromTop p offset b) (b - x) = horner (p.map fun c : ℚ => (c : ℝ)) (x - offset) := by
  rw [fromTop, ev_compA, horner_ev]; congr 1; push_cast; ring

/-- what is checked of a piece: the denominator is positive and the quotient decreases with the distance -/
def pieceOK (p q : List ℚ) (offset b : ℚ) : Bool :=
  let P := fromTop p offset b
  let Q := fromTop q offset b
  posA Q && posA (addA (mulA P (derA Q)) (scaleA (-1) (mulA (derA P) Q)))

/-- the quotient of a piece -/
noncomputable def quot (p q : List ℚ) (offset : ℚ) (x : ℝ) : ℝ := horner (p.map fun c : ℚ => (c : ℝ)) (x - offset) / horner (q.map fun c : ℚ => (c : ℝ)) (x - offset)

theorem piece {p q : List ℚ} {offset b : ℚ} (h : pieceOK p q offset b = true) :
    (∀ x : ℝ, x ≤ b → 0 < horner (q.map fun c : ℚ => (c : ℝ)) (x - offset)) ∧ (∀ x : ℝ, x ≤ b → ratio p q offset x = .ok (quot p q offset x)) ∧
    ∀ x y : ℝ, x < y → y ≤ b → quot p q offset x < quot p q offset y := by
  simp only [pieceOK, Bool.and_eq_true] at h
  obtain ⟨hQ, hW⟩ := h
  set P := fromTop p offset b with hP
  set Q := fromTop q offset b with hQd
  have pos : ∀ x : ℝ, x ≤ b → 0 < horner (q.map fun c : ℚ => (c : ℝ)) (x - offset) := fun x hx => by
    rw [← ev_fromTop q offset b]; exact ev_pos hQ (by linarith)
  refine ⟨pos, fun x hx => pdiv_ok (pos x hx).ne', fun x y hxy hy => ?_⟩
  have anti : StrictAntiOn (fun s => ev P s / ev Q s) (Set.Ici 0) := by
    have hd : ∀ s : ℝ, 0 ≤ s → HasDerivAt (fun s => ev P s / ev Q s) ((ev (derA P) s * ev Q s - ev P s * ev (derA Q) s) / ev Q s ^ 2) s := fun s hs =>
      (ev_hasDerivAt P s).div (ev_hasDerivAt Q s) (ev_pos hQ hs).ne'
    refine strictAntiOn_of_deriv_neg (convex_Ici 0) (fun s hs => (hd s hs).continuousAt.continuousWithinAt) fun s hs => ?_
    rw [interior_Ici] at hs
    have hs0 : (0 : ℝ) ≤ s := le_of_lt hs
    rw [(hd s hs0).deriv]
    have hw := ev_pos hW hs0
    rw [ev_addA, ev_scaleA, ev_mulA, ev_mulA] at hw
    push_cast at hw
    have := ev_pos hQ hs0
    exact div_neg_of_neg_of_pos (by linarith) (by positivity)
  have := anti (a := (b : ℝ) - y) (b := (b : ℝ) - x) (by simp; linarith) (by simp; linarith) (by linarith)
  simp only [hP, hQd, ev_fromTop] at this
  exact this

theorem ok1 : pieceOK p_0_70 q_0_07 0.26 0.7 = true := by decide +kernel
theorem ok2 : pieceOK p_07_099 q_07_099 0.95 0.99 = true := by decide +kernel
theorem ok3 : pieceOK p_099_1 q_099_1 0.999 1 = true := by decide +kernel

theorem horner_cast (p : List ℚ) (x : ℚ) : horner (p.map fun c : ℚ => (c : ℝ)) (x : ℝ) = ((horner p x : ℚ) : ℝ) := by
  rw [horner_ev]
  have : ∀ l : List ℚ, ev l x = ((l.foldr (fun c acc => c + x * acc) 0 : ℚ) : ℝ) := by
    intro l
    induction l with
    | nil => simp
    | cons c l ih => rw [ev_cons, ih, List.foldr_cons]; push_cast; ring
  rw [this, List.foldr_reverse, horner]
  congr 3
  funext a c
  ring

theorem quot_cast (p q : List ℚ) (offset x : ℚ) : quot p q offset x = ((horner p (x - offset) / horner q (x - offset) : ℚ) : ℝ) := by
  rw [quot, ← Rat.cast_sub, horner_cast, horner_cast]; push_cast; rfl

/-- the value on the interval from 0 to 1 -/
noncomputable def val (x : ℝ) : ℝ := if x ≤ 0.7 then quot p_0_70 q_0_07 0.26 x else if x ≤ 0.99 then quot p_07_099 q_07_099 0.95 x else quot p_099_1 q_099_1 0.999 x

theorem c07 : ((0.7 : ℚ) : ℝ) = 0.7 := by norm_num
theorem c099 : ((0.99 : ℚ) : ℝ) = 0.99 := by norm_num
theorem c1 : ((1 : ℚ) : ℝ) = 1 := by norm_num

theorem polylog2_val {x : ℝ} (h0 : 0 ≤ x) (h1 : x ≤ 1) : polylog2 x = .ok (val x) := by
  rw [polylog2, val]
  by_cases a : x ≤ 0.7
  · rw [if_pos ⟨h0, a⟩, if_pos a]; exact (piece ok1).2.1 x (by rw [c07]; exact a)
  · rw [if_neg (fun h => a h.2), if_neg a]
    by_cases b : x ≤ 0.99
    · rw [if_pos ⟨not_le.1 a, b⟩, if_pos b]; exact (piece ok2).2.1 x (by rw [c099]; exact b)
    · rw [if_neg (fun h => b h.2), if_neg b, if_pos ⟨not_le.1 b, h1⟩]; exact (piece ok3).2.1 x (by rw [c1]; exact h1)

theorem jump1 : quot p_0_70 q_0_07 0.26 0.7 < quot p_07_099 q_07_099 0.95 0.7 := by
  rw [← c07, quot_cast, quot_cast, Rat.cast_lt]; decide +kernel
theorem jump2 : quot p_07_099 q_07_099 0.95 0.99 < quot p_099_1 q_099_1 0.999 0.99 := by
  rw [← c099, quot_cast, quot_cast, Rat.cast_lt]; decide +kernel

theorem val_strictMono {x y : ℝ} (hxy : x < y) (h1 : y ≤ 1) : val x < val y := by
  have m1 := (piece ok1).2.2
  have m2 := (piece ok2).2.2
  have m3 := (piece ok3).2.2
  rw [c07] at m1; rw [c099] at m2; rw [c1] at m3
  have w1 : ∀ x, x ≤ 0.7 → quot p_0_70 q_0_07 0.26 x ≤ quot p_0_70 q_0_07 0.26 0.7 := fun x hx => hx.eq_or_lt.elim (fun h => by rw [h]) fun h => (m1 x 0.7 h le_rfl).le
  have w2 : ∀ x, x ≤ 0.99 → quot p_07_099 q_07_099 0.95 x ≤ quot p_07_099 q_07_099 0.95 0.99 := fun x hx => hx.eq_or_lt.elim (fun h => by rw [h]) fun h => (m2 x 0.99 h le_rfl).le
  unfold val
  by_cases a : x ≤ 0.7
  · rw [if_pos a]
    by_cases a' : y ≤ 0.7
    · rw [if_pos a']; exact m1 x y hxy a'
    · rw [if_neg a']
      by_cases b' : y ≤ 0.99
      · rw [if_pos b']
        exact (w1 x a).trans_lt (jump1.trans (m2 _ _ (not_le.1 a') b'))
      · rw [if_neg b']
        exact (w1 x a).trans_lt (jump1.trans_le ((w2 0.7 (by norm_num)).trans (jump2.trans (m3 _ _ (not_le.1 b') h1)).le))
  · rw [if_neg a, if_neg (fun h => a (hxy.le.trans h))]
    by_cases b : x ≤ 0.99
    · rw [if_pos b]
      by_cases b' : y ≤ 0.99
      · rw [if_pos b']; exact m2 x y hxy b'
      · rw [if_neg b']; exact (w2 x b).trans_lt (jump2.trans (m3 _ _ (not_le.1 b') h1))
    · rw [if_neg b, if_neg (fun h => b (hxy.le.trans h))]
      exact m3 x y hxy h1

theorem val_zero : 1e-12 < val 0 ∧ val 0 < 2e-12 := by
  have e : val 0 = (((horner p_0_70 (0 - 0.26) / horner q_0_07 (0 - 0.26) : ℚ)) : ℝ) := by
    rw [val, if_pos (by norm_num), ← quot_cast]; norm_num
  rw [e, show (1e-12 : ℝ) = ((1e-12 : ℚ) : ℝ) by norm_num, show (2e-12 : ℝ) = ((2e-12 : ℚ) : ℝ) by norm_num, Rat.cast_lt, Rat.cast_lt]
  constructor <;> decide +kernel

theorem val_one : 1.6449299 < val 1 ∧ val 1 < 1.64493 := by
  have e : val 1 = (((horner p_099_1 (1 - 0.999) / horner q_099_1 (1 - 0.999) : ℚ)) : ℝ) := by
    rw [val, if_neg (by norm_num), if_neg (by norm_num), ← quot_cast]; norm_num
  rw [e, show (1.6449299 : ℝ) = ((1.6449299 : ℚ) : ℝ) by norm_num, show (1.64493 : ℝ) = ((1.64493 : ℚ) : ℝ) by norm_num, Rat.cast_lt, Rat.cast_lt]
  constructor <;> decide +kernel

/-! ### Properties -/

/-- C139: the approximation exists exactly on the interval from 0 to 1: no denominator vanishes there, and outside it is refused -/
theorem C139_domain (x : ℝ) : (0 ≤ x → x ≤ 1 → ∃ y, polylog2 x = .ok y ∧ 0 < y ∧ y < 1.64493) ∧ (x < 0 ∨ 1 < x → polylog2 x = .error .valueError) := by
  refine ⟨fun h0 h1 => ⟨val x, polylog2_val h0 h1, ?_, ?_⟩, fun h => ?_⟩
  · have := val_zero.1
    rcases h0.eq_or_lt with rfl | h
    · linarith
    · have := val_strictMono h h1; linarith
  · rcases h1.eq_or_lt with rfl | h
    · exact val_one.2
    · exact (val_strictMono h le_rfl).trans val_one.2
  · rw [polylog2, if_neg, if_neg, if_neg]
    all_goals
      rintro ⟨a, b⟩
      rcases h with h | h <;> linarith

/-- C139: the approximation increases strictly, across the changes of coefficients too -/
theorem C139_strictMono {x y a b : ℝ} (h0 : 0 ≤ x) (hxy : x < y) (h1 : y ≤ 1) (ha : polylog2 x = .ok a) (hb : polylog2 y = .ok b) : a < b := by
  rw [polylog2_val h0 (hxy.le.trans h1)] at ha
  rw [polylog2_val (h0.trans hxy.le) h1] at hb
  rw [← Except.ok.inj ha, ← Except.ok.inj hb]
  exact val_strictMono hxy h1

/-! ### Accuracy -/

theorem dilog_summable {x : ℝ} (h0 : 0 ≤ x) (h1 : x < 1) : Summable fun k : ℕ => x ^ (k + 1) / ((k : ℝ) + 1) ^ 2 := by
  refine Summable.of_nonneg_of_le (fun k => by positivity) (fun k => ?_) ((summable_geometric_of_lt_one h0 h1).mul_left x)
  rw [← pow_succ']
  refine div_le_self (by positivity) ?_
  have : (0 : ℝ) ≤ k := Nat.cast_nonneg k
  nlinarith

theorem dilog_bounds {x : ℝ} (h0 : 0 ≤ x) (h1 : x < 1) (N : ℕ) : ∑ k ∈ Finset.range N, x ^ (k + 1) / ((k : ℝ) + 1) ^ 2 ≤ dilog x ∧
    dilog x ≤ ∑ k ∈ Finset.range N, x ^ (k + 1) / ((k : ℝ) + 1) ^ 2 + x ^ (N + 1) / ((N + 1) ^ 2 * (1 - x)) := by
  have hs := dilog_summable h0 h1
  refine ⟨hs.sum_le_tsum _ fun k _ => by positivity, ?_⟩
  rw [dilog, ← hs.sum_add_tsum_nat_add N]
  have hN : (0 : ℝ) ≤ N := Nat.cast_nonneg N
  have hg : HasSum (fun k : ℕ => x ^ (N + 1) / ((N : ℝ) + 1) ^ 2 * x ^ k) (x ^ (N + 1) / ((N : ℝ) + 1) ^ 2 * (1 - x)⁻¹) := (hasSum_geometric_of_lt_one h0 h1).mul_left _
  have : ∑' k : ℕ, x ^ (k + N + 1) / (((k + N : ℕ) : ℝ) + 1) ^ 2 ≤ x ^ (N + 1) / ((N : ℝ) + 1) ^ 2 * (1 - x)⁻¹ := by
    rw [← hg.tsum_eq]
    refine Summable.tsum_le_tsum (fun k => ?_) ((summable_nat_add_iff N).2 hs) hg.summable
    rw [show x ^ (k + N + 1) = x ^ (N + 1) * x ^ k by ring, div_mul_eq_mul_div]
    have hk : (0 : ℝ) ≤ k := Nat.cast_nonneg k
    refine div_le_div_of_nonneg_left (by positivity) (by positivity) ?_
    push_cast
    gcongr
    linarith
  refine add_le_add le_rfl (this.trans_eq ?_)
  rw [← div_eq_mul_inv, div_div]

def series (N : ℕ) : List ℚ := 0 :: (List.range N).map fun k : ℕ => 1 / ((k : ℚ) + 1) ^ 2

theorem ev_append (l : List ℚ) (c : ℚ) (x : ℝ) : ev (l ++ [c]) x = ev l x + c * x ^ l.length := by
  induction l with
  | nil => simp
  | cons d l ih => rw [List.cons_append, ev_cons, ih, ev_cons, List.length_cons]; ring

theorem ev_series (N : ℕ) (x : ℝ) : ev (series N) x = ∑ k ∈ Finset.range N, x ^ (k + 1) / ((k : ℝ) + 1) ^ 2 := by
  have : ∀ N : ℕ, x * ev ((List.range N).map fun k : ℕ => 1 / ((k : ℚ) + 1) ^ 2) x = ∑ k ∈ Finset.range N, x ^ (k + 1) / ((k : ℝ) + 1) ^ 2 := by
    intro N
    induction N with
    | zero => simp
    | succ N ih =>
      rw [List.range_succ, List.map_append, List.map_singleton, ev_append, Finset.sum_range_succ, ← ih]
      simp only [List.length_map, List.length_range]
      push_cast
      ring
  rw [series, ev_cons, this]; simp

/-- numerator and denominator of the first piece, in the argument -/
def num1 : List ℚ := compA (-0.26) 1 p_0_70.reverse
def den1 : List ℚ := compA (-0.26) 1 q_0_07.reverse

theorem val_first {x : ℝ} (hx : x ≤ 0.7) : val x = ev num1 x / ev den1 x ∧ 0 < ev den1 x := by
  have e : ∀ p : List ℚ, ev (compA (-0.26) 1 p.reverse) x = horner (p.map fun c : ℚ => (c : ℝ)) (x - (0.26 : ℚ)) := fun p => by
    rw [ev_compA, horner_ev]; congr 1; push_cast; ring
  refine ⟨?_, ?_⟩
  · rw [val, if_pos hx, num1, den1, e, e]; rfl
  · rw [den1, e]; exact (piece ok1).1 x (by rw [c07]; exact hx)

/-- a polynomial that passes the test on the interval from `a` to `b` -/
theorem test {l : List ℚ} {a b : ℚ} (hab : a < b) (h : bernOK (compA a (b - a) l) = true) {x : ℝ} (h0 : (a : ℝ) ≤ x) (h1 : x ≤ b) : 0 ≤ ev l x := by
  have hab' : (a : ℝ) < b := by exact_mod_cast hab
  have hd : (0 : ℝ) < b - a := by linarith
  have := bern_nonneg h (u := (x - a) / (b - a)) (div_nonneg (by linarith) hd.le) (by rw [div_le_one hd]; linarith)
  rw [ev_compA] at this
  have e : (a : ℝ) + ((b - a : ℚ) : ℝ) * ((x - a) / (b - a)) = x := by push_cast; field_simp; ring
  rwa [e] at this

/-- the allowance `9e-8` of the series, with either sign of the error -/
def margin (sign : ℚ) : List ℚ := addA (scaleA 9e-8 (mulA den1 (series 40))) (scaleA sign (addA num1 (scaleA (-1) (mulA den1 (series 40)))))

theorem margin_pos : bernOK (compA 2e-5 (0.7 - 2e-5) (margin 1)) = true := by decide +kernel
theorem margin_neg : bernOK (compA 2e-5 (0.7 - 2e-5) (margin (-1))) = true := by decide +kernel

/-- C139: from 0.00002 to 0.7 the relative error is below the documented 1e-7 -/
theorem C139_accuracy {x : ℝ} (h0 : 2e-5 ≤ x) (h1 : x ≤ 0.7) : ∃ y, polylog2 x = .ok y ∧ |y - dilog x| < 1e-7 * dilog x := by
  have hx0 : 0 < x := lt_of_lt_of_le (by norm_num) h0
  refine ⟨val x, polylog2_val hx0.le (h1.trans (by norm_num)), ?_⟩
  obtain ⟨e, hQ⟩ := val_first h1
  have a1 := test (by norm_num) margin_pos (x := x) (by norm_num; linarith) (by rw [c07]; exact h1)
  have a2 := test (by norm_num) margin_neg (x := x) (by norm_num; linarith) (by rw [c07]; exact h1)
  simp only [margin, ev_addA, ev_scaleA, ev_mulA] at a1 a2
  push_cast at a1 a2
  obtain ⟨b1, b2⟩ := dilog_bounds hx0.le (lt_of_le_of_lt h1 (by norm_num)) 40
  rw [← ev_series] at b1 b2
  set S := ev (series 40) x with hS
  set Q := ev den1 x
  set P := ev num1 x
  have hSx : x ≤ S := by
    rw [hS, ev_series]
    have := Finset.single_le_sum (f := fun k : ℕ => x ^ (k + 1) / ((k : ℝ) + 1) ^ 2) (fun k _ => by positivity) (Finset.mem_range.2 (by norm_num : 0 < 40))
    simpa using this
  have hy : |val x - S| ≤ 9e-8 * S := by
    have ey : val x - S = (P - Q * S) / Q := by rw [e]; field_simp
    rw [ey, abs_div, abs_of_pos hQ, div_le_iff₀ hQ, abs_le]
    constructor <;> linarith
  have ht : x ^ (40 + 1) / (((40 : ℕ) + 1 : ℝ) ^ 2 * (1 - x)) ≤ 2e-9 * S := by
    have hp : x ^ 40 ≤ (0.7 : ℝ) ^ 40 := pow_le_pow_left₀ hx0.le h1 40
    have hd : (504 : ℝ) ≤ ((40 : ℕ) + 1 : ℝ) ^ 2 * (1 - x) := by push_cast; nlinarith
    rw [div_le_iff₀ (by linarith)]
    have h7 : (0.7 : ℝ) ^ 40 ≤ 1e-6 := by norm_num
    have : x ^ (40 + 1) ≤ 1e-6 * S := by
      rw [pow_succ]
      exact mul_le_mul (hp.trans h7) hSx hx0.le (by norm_num)
    have hS0 : 0 ≤ S := hx0.le.trans hSx
    nlinarith
  have hS0 : 0 < S := lt_of_lt_of_le hx0 hSx
  rw [abs_le] at hy
  rw [abs_lt]
  constructor <;> linarith

/-- four times the numerator, against the bound `x + x²/(4(1 - x))` of the dilogarithm enlarged by 1e-7 -/
def excess : List ℚ := addA (mulA [4, -4] num1) (scaleA (-1.0000001) (mulA den1 [0, 4, -3]))

theorem excess_ok : bernOK (compA 0 (1e-5 - 0) (addA excess [-1e-13])) = true := by decide +kernel

/-- C139, finding: the relative error documented as below 1e-7 "from 0" is above it up to 0.00001; at 0, where the dilogarithm is 0, the value is positive -/
theorem C139_accuracy_lost {x : ℝ} (h0 : 0 ≤ x) (h1 : x ≤ 1e-5) : ∃ y, polylog2 x = .ok y ∧ 0 < y ∧ 1e-7 * dilog x < y - dilog x := by
  have h7 : x ≤ 0.7 := h1.trans (by norm_num)
  obtain ⟨y, hy, hpos, -⟩ := (C139_domain x).1 h0 (h1.trans (by norm_num))
  refine ⟨y, hy, hpos, ?_⟩
  rw [polylog2_val h0 (h1.trans (by norm_num))] at hy
  obtain rfl := Except.ok.inj hy
  obtain ⟨e, hQ⟩ := val_first h7
  have a := test (by norm_num) excess_ok (x := x) (by simpa using h0) (by norm_num; linarith)
  simp only [excess, ev_addA, ev_scaleA, ev_mulA, ev_cons, ev_nil] at a
  push_cast at a
  have hd : 0 < 1 - x := by linarith
  have b := (dilog_bounds h0 (by linarith) 1).2
  have b' : dilog x ≤ (4 * x - 3 * x ^ 2) / (4 * (1 - x)) := by
    refine b.trans_eq ?_
    simp only [Finset.sum_range_one, Nat.cast_zero, Nat.cast_one]
    field_simp
    ring
  set P := ev num1 x
  set Q := ev den1 x
  have hv : 1.0000001 * ((4 * x - 3 * x ^ 2) / (4 * (1 - x))) < val x := by
    rw [e, ← mul_div_assoc, div_lt_div_iff₀ (by linarith) hQ]
    nlinarith
  linarith

theorem dilog_zero : dilog 0 = 0 := by simp [dilog]

example : ∃ y, polylog2 0.5 = .ok y ∧ |y - dilog 0.5| < 1e-7 * dilog 0.5 := C139_accuracy (by norm_num) (by norm_num)

end Verif.Polylog
