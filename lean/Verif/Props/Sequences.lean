import Verif.Model.Sequences
import Verif.Lemmas.ListSum
import Verif.Lemmas.ListIdx
import Mathlib.Algebra.Group.ForwardDiff
import Mathlib.Algebra.Order.BigOperators.Group.List
import Mathlib.Data.Rat.Cast.CharZero

/-! # C20, C23, C24, C36, C80: sequence utilities, monotonicity tests, closeness, normalisation, caching -/

namespace Verif
open Verif.Seq Finset

section Linspace
variable {K : Type _} [Field K]

theorem appendSteps_eq (step : K) (n : ℕ) (y : List K) :
    appendSteps step n y = y ++ (List.range n).map fun k : ℕ => y.getLastD 0 + ((k : K) + 1) * step := by
  induction n generalizing y with
  | zero => simp [appendSteps]
  | succ n ih =>
    rw [appendSteps, ih, List.range_succ_eq_map, List.map_cons, List.map_map, List.append_assoc]
    simp only [List.singleton_append, List.getLastD_concat, Nat.cast_zero, zero_add, one_mul, Function.comp_def]
    congr 2
    apply List.map_congr_left
    intro k _
    push_cast; ring

/-- C20: `linspace(start, stop, num)` with `num ≥ 2` has exactly `num` entries; entry `i` is
`start + i (stop - start)/(num - 1)`, so the first is `start`, the last is `stop` and the spacing is constant. -/
theorem C20_linspace [CharZero K] (start stop : K) (num : ℕ) (h : 2 ≤ num) :
    (linspace start stop num true).length = num ∧
    (∀ i < num, (linspace start stop num true).getD i 0 = start + i * ((stop - start) / ((num : K) - 1))) ∧
    (linspace start stop num true).head? = some start ∧ (linspace start stop num true).getLast? = some stop := by
  have h1 : ((num : K) - 1) ≠ 0 := by
    rw [sub_ne_zero]; intro hh
    have : num = 1 := by exact_mod_cast hh
    omega
  have e : linspace start stop num true =
      [start] ++ (List.range (num - 2)).map (fun k : ℕ => start + ((k : K) + 1) * ((stop - start) / ((num : K) - 1)))
        ++ [stop] := by
    rw [linspace, if_neg (by omega), if_pos rfl, if_neg (by omega)]
    simp only [appendSteps_eq]
    have : ((num : ℤ) - 2).toNat = num - 2 := by omega
    rw [this]
    simp
  rw [e]
  refine ⟨by simp; omega, fun i hi => ?_, by simp, by rw [List.getLast?_concat]⟩
  rw [getD_append', getD_append']
  simp only [List.length_append, List.length_cons, List.length_nil, List.length_map, List.length_range]
  rcases i with _ | i
  · simp
  · split_ifs with c1 c2 c2
    · omega
    · rw [getD_map_range, if_pos (by omega)]; simp
    · rw [show i + 1 - (0 + 1 + (num - 2)) = 0 by omega]
      have : ((i + 1 : ℕ) : K) = (num : K) - 1 := by rw [show num = i + 2 by omega]; push_cast; ring
      rw [this]
      field_simp
      simp

/-- C20: without the end point, entry `i` is `start + i (stop - start)/num`. -/
theorem C20_linspace_open (start stop : K) (num : ℕ) (h : 1 ≤ num) :
    (linspace start stop num false).length = num ∧
    ∀ i < num, (linspace start stop num false).getD i 0 = start + i * ((stop - start) / num) := by
  have e : linspace start stop num false =
      [start] ++ (List.range (num - 1)).map (fun k : ℕ => start + ((k : K) + 1) * ((stop - start) / num)) := by
    rw [linspace, if_neg (by omega), if_neg (by simp)]
    simp only [appendSteps_eq]
    have : ((num : ℤ) - 1).toNat = num - 1 := by omega
    rw [this]
    simp
  rw [e]
  refine ⟨by simp; omega, fun i hi => ?_⟩
  rw [getD_append']
  rcases i with _ | i
  · simp
  · simp only [List.length_cons, List.length_nil]
    rw [if_neg (by omega), getD_map_range, if_pos (by omega)]; simp

/-- C20: one point gives `[start]` with the end point included, no points (or fewer) give the empty list. -/
theorem C20_linspace_small (start stop : K) (e : Bool) :
    linspace start stop 1 e = [start] ∧ ∀ num : ℤ, num ≤ 0 → linspace start stop num e = [] := by
  refine ⟨?_, fun num h => by simp [linspace, h]⟩
  cases e <;> simp [linspace, appendSteps]

example : linspace (1 : ℚ) 2 5 true = [1, 5/4, 3/2, 7/4, 2] := by decide +kernel

/-- C20: `logspace` entries are `base` to the `linspace` entries. -/
theorem C20_logspace (start stop base : ℝ) (hb : 0 < base) (num : ℕ) (h : 2 ≤ num) :
    ∃ l, logspace start stop num true base = .ok l ∧ l.length = num ∧
      ∀ i < num, l.getD i 0 = base ^ (start + i * ((stop - start) / ((num : ℝ) - 1))) := by
  obtain ⟨h1, h2, -, -⟩ := C20_linspace start stop num h
  have hm : ∀ l : List ℝ, (l.mapM fun y => base ^ₚ y) = Except.ok (l.map fun y => base ^ y) := by
    intro l
    induction l with
    | nil => rfl
    | cons y l ih => rw [List.mapM_cons, ppow_ok hb, Py.ok_bind, ih]; rfl
  refine ⟨_, hm _, by simp [h1], fun i hi => ?_⟩
  rw [getD_map' _ _ _ _ (by omega), ← h2 i hi, List.getD_eq_getElem _ _ (by omega)]

end Linspace

section Sums
variable {K : Type _} [Field K]

/-- C20: `product` is the product. -/
theorem C20_product (l : List K) : product l = l.prod := by
  have := foldl_mul l (fun x => x) (1 : K)
  simpa [product] using this

/-- C20: `mean` is the sum over the count; the empty list raises `ZeroDivisionError`. -/
theorem C20_mean [CharZero K] [DecidableEq K] (l : List K) :
    (l ≠ [] → ∃ m, mean l = .ok m ∧ m * l.length = l.sum) ∧ (mean ([] : List K) = .error .zeroDivisionError) := by
  refine ⟨fun h => ?_, by simp [mean]⟩
  have : (l.length : K) ≠ 0 := by simpa using h
  exact ⟨_, pdiv_ok this, by field_simp⟩

theorem cumsum_loop (rest : List K) (base : K) (sums : List K) :
    (rest.foldl (fun st v => let base := st.1 + v; (base, st.2 ++ [base])) (base, sums)).2 =
      sums ++ (List.range rest.length).map fun i => base + (rest.take (i + 1)).sum := by
  induction rest generalizing base sums with
  | nil => simp
  | cons v rest ih =>
    rw [List.foldl_cons, ih, List.length_cons, List.range_succ_eq_map, List.map_cons, List.map_map, List.append_assoc]
    simp [Function.comp_def, add_assoc]

/-- C20: `cumsum` returns the partial sums (and raises `IndexError` on an empty list). -/
theorem C20_cumsum (a : List K) : (a = [] → cumsum a = .error .indexError) ∧
    (a ≠ [] → cumsum a = .ok ((List.range a.length).map fun i => (a.take (i + 1)).sum)) := by
  refine ⟨fun h => by subst h; rfl, fun h => ?_⟩
  rcases a with _ | ⟨a0, rest⟩
  · simp at h
  · simp only [cumsum]
    rw [cumsum_loop, List.length_cons, List.range_succ_eq_map, List.map_cons, List.map_map]
    simp [Function.comp_def]

theorem diff1_getD (a : List K) (i : ℕ) (hi : i + 1 < a.length) :
    (diff1 a).getD i 0 = a.getD (i + 1) 0 - a.getD i 0 := by
  rw [diff1, getD_map_range, if_pos (by omega)]

theorem take_succ_sum (a : List K) (i : ℕ) : (a.take (i + 1)).sum = (a.take i).sum + a.getD i 0 := by
  by_cases h : i < a.length
  · rw [List.take_succ_eq_append_getElem h, List.sum_append, List.getD_eq_getElem _ _ h]; simp
  · rw [List.take_of_length_le (by omega), List.take_of_length_le (by omega), List.getD_eq_default _ _ (by omega), add_zero]

/-- C20: `diff` undoes `cumsum`: the differences of the partial sums are the tail of the list. -/
theorem C20_diff_cumsum (a0 : K) (rest : List K) :
    ∃ s, cumsum (a0 :: rest) = .ok s ∧ diff s 1 = .ok rest := by
  refine ⟨_, (C20_cumsum (a0 :: rest)).2 (by simp), ?_⟩
  have e : diff ((List.range (a0 :: rest).length).map fun i => ((a0 :: rest).take (i + 1)).sum) 1 =
      .ok (diff1 ((List.range (a0 :: rest).length).map fun i => ((a0 :: rest).take (i + 1)).sum)) := rfl
  rw [e]
  congr 1
  apply List.ext_getElem
  · simp [diff1]
  · intro i i1 i2
    have hi : i + 1 < ((List.range (a0 :: rest).length).map fun i => ((a0 :: rest).take (i + 1)).sum).length := by
      simp [i2]
    rw [← List.getD_eq_getElem _ 0 i1, diff1_getD _ _ hi, getD_map_range, getD_map_range,
      if_pos (by simpa using i2), if_pos (by simp; omega), take_succ_sum _ (i + 1)]
    simp [i2]

/-- C20: `cumsum` undoes `diff`: the partial sums of the first entry followed by the differences give the list back. -/
theorem C20_cumsum_diff (a0 : K) (rest : List K) :
    ∃ ds, diff (a0 :: rest) 1 = .ok ds ∧ cumsum (a0 :: ds) = .ok (a0 :: rest) := by
  refine ⟨diff1 (a0 :: rest), rfl, ?_⟩
  rw [(C20_cumsum _).2 (by simp)]
  congr 1
  have hl : (a0 :: diff1 (a0 :: rest)).length = rest.length + 1 := by simp [diff1]
  have key : ∀ i < rest.length + 1, ((a0 :: diff1 (a0 :: rest)).take (i + 1)).sum = (a0 :: rest).getD i 0 := by
    intro i
    induction i with
    | zero => intro _; simp
    | succ i ih =>
      intro hi
      rw [take_succ_sum, ih (by omega), List.getD_cons_succ, diff1_getD _ _ (by simpa using hi)]; ring
  apply List.ext_getElem
  · simp [hl]
  · intro i i1 i2
    simp only [List.getElem_map, List.getElem_range]
    rw [key i (by simpa using i2), List.getD_eq_getElem _ _ i2]

/-- C20: `diff(a, n)` is the `n`-th forward difference: it has `len(a) - n` entries, entry `i` being the `n`-th forward
difference at `i`. Negative orders raise `ValueError`. -/
theorem C20_diff (a : List K) (n : ℕ) :
    (∃ ds, diff a n = .ok ds ∧ ds.length = a.length - n ∧
      ∀ i, i + n < a.length → ds.getD i 0 = (fwdDiff 1)^[n] (fun k : ℕ => a.getD k 0) i) ∧
    ∀ m : ℤ, m < 0 → diff a m = .error .valueError := by
  refine ⟨⟨diffPos n a, ?_, ?_, ?_⟩, fun m hm => by rw [diff, if_neg (by omega), if_pos hm]⟩
  · rcases n with _ | n
    · rfl
    · rw [diff, if_neg (by omega), if_neg (by omega)]; rfl
  · induction n generalizing a with
    | zero => rfl
    | succ n ih => rw [diffPos, ih]; simp [diff1]; omega
  · induction n generalizing a with
    | zero => intro i _; rfl
    | succ n ih =>
      intro i hi
      rw [diffPos, ih _ _ (by simp [diff1]; omega), Function.iterate_succ_apply]
      -- the two functions agree on the window that is read
      have agree : ∀ (n : ℕ) (f g : ℕ → K) (i : ℕ), (∀ k, i ≤ k → k ≤ i + n → f k = g k) →
          (fwdDiff 1)^[n] f i = (fwdDiff 1)^[n] g i := by
        intro n
        induction n with
        | zero => intro f g i h; exact h i le_rfl le_rfl
        | succ n ih =>
          intro f g i h
          rw [Function.iterate_succ_apply', Function.iterate_succ_apply', fwdDiff, fwdDiff,
            ih f g (i + 1) (fun k h1 h2 => h k (by omega) (by omega)), ih f g i (fun k h1 h2 => h k h1 (by omega))]
      apply agree
      intro k h1 h2
      rw [diff1_getD _ _ (by omega), fwdDiff]

example : diff [1, 4, 9, (16 : ℚ)] 2 = .ok [2, 2] := by decide +kernel
example : cumsum [1, 2, (3 : ℚ)] = .ok [1, 3, 6] := by decide +kernel

theorem trapLoop_eq (y : List K) (w : ℕ → K) (n : ℕ) :
    (trapLoop y w n).1.length = n ∧ (trapLoop y w n).2 = ∑ k ∈ range n, (y.getD k 0 + y.getD (k + 1) 0) / 2 * w k ∧
      ∀ i < n, (trapLoop y w n).1.getD i 0 = ∑ k ∈ range (i + 1), (y.getD k 0 + y.getD (k + 1) 0) / 2 * w k := by
  induction n with
  | zero => simp [trapLoop]
  | succ n ih =>
    obtain ⟨h1, h2, h3⟩ := ih
    have e : trapLoop y w (n + 1) = ((trapLoop y w n).1 ++ [(trapLoop y w n).2 +
        (y.getD n 0 + y.getD (n + 1) 0) * w n * (1 / 2)], (trapLoop y w n).2 +
        (y.getD n 0 + y.getD (n + 1) 0) * w n * (1 / 2)) := by
      simp only [trapLoop]
      rw [List.range_succ, List.foldl_append]; rfl
    have e2 : (trapLoop y w n).2 + (y.getD n 0 + y.getD (n + 1) 0) * w n * (1 / 2) =
        ∑ k ∈ range (n + 1), (y.getD k 0 + y.getD (k + 1) 0) / 2 * w k := by
      rw [sum_range_succ, h2]; ring
    rw [e]
    refine ⟨by simp [h1], e2, fun i hi => ?_⟩
    simp only
    rw [getD_append', h1]
    split_ifs with c
    · exact h3 i c
    · obtain rfl : i = n := by omega
      rw [e2]; simp

/-- C20: `cumulative_trapezoid(y, x)` has `len(y) - 1` entries, entry `i` being the trapezoid sum over the first `i + 1`
intervals; the same with constant spacing `dx`; lists shorter than 2 give `[]`; inconsistent inputs raise `ValueError`. -/
theorem C20_cumulative_trapezoid (y : List K) (h : 2 ≤ y.length) (dx : Option K) :
    (∀ x : List K, x.length = y.length → ∃ r, cumulative_trapezoid y (some x) dx = .ok r ∧ r.length = y.length - 1 ∧
      ∀ i < y.length - 1, r.getD i 0 =
        ∑ k ∈ range (i + 1), (y.getD k 0 + y.getD (k + 1) 0) / 2 * (x.getD (k + 1) 0 - x.getD k 0)) ∧
    (∀ x : List K, x.length ≠ y.length → cumulative_trapezoid y (some x) dx = .error .valueError) ∧
    (∀ w : K, ∃ r, cumulative_trapezoid y none (some w) = .ok r ∧ r.length = y.length - 1 ∧
      ∀ i < y.length - 1, r.getD i 0 = ∑ k ∈ range (i + 1), (y.getD k 0 + y.getD (k + 1) 0) / 2 * w) ∧
    cumulative_trapezoid y none none = .error .valueError := by
  have h0 : y ≠ [] := by rintro rfl; simp at h
  have h1 : ¬ y.length < 2 := by omega
  refine ⟨fun x hx => ?_, fun x hx => ?_, fun w => ?_, ?_⟩
  · obtain ⟨a, -, c⟩ := trapLoop_eq y (fun i => x.getD (i + 1) 0 - x.getD i 0) (y.length - 1)
    exact ⟨_, by rw [cumulative_trapezoid, if_neg h0]; simp only [if_neg h1]; rw [if_neg (by simpa using hx)], a, c⟩
  · rw [cumulative_trapezoid, if_neg h0]; simp only [if_neg h1]; rw [if_pos hx]
  · obtain ⟨a, -, c⟩ := trapLoop_eq y (fun _ => w) (y.length - 1)
    exact ⟨_, by rw [cumulative_trapezoid, if_neg h0]; simp only [if_neg h1], a, c⟩
  · rw [cumulative_trapezoid, if_neg h0]; simp only [if_neg h1]

end Sums

section Mono
variable {K : Type _} [LinearOrder K]

/-- C23: `is_increasing` is true exactly for strictly increasing lists. -/
theorem C23_is_increasing (l : List K) : is_increasing l = true ↔ l.Pairwise (· < ·) := by
  have loop : ∀ (p : K) (r : List K), increasingLoop p r = true ↔ List.IsChain (· < ·) (p :: r) := by
    intro p r
    induction r generalizing p with
    | nil => simp [increasingLoop]
    | cons c r ih =>
      rw [increasingLoop]
      split_ifs with h
      · simp [not_lt.mpr h]
      · rw [ih, List.isChain_cons_cons]; simp [not_le.mp h]
  rcases l with _ | ⟨a, _ | ⟨b, l⟩⟩
  · simp [is_increasing]
  · simp [is_increasing]
  · rw [is_increasing, loop, List.isChain_iff_pairwise]
    simp

theorem mono_loop (points : List K) (p0 : K) (n : ℕ) :
    (List.range n).foldl (fun (st : Bool × Bool) i =>
      let st := if points.getD (i + 1) p0 > points.getD i p0 then (true, st.2) else st
      if points.getD (i + 1) p0 < points.getD i p0 then (st.1, true) else st) (false, false) =
    (decide (∃ i < n, points.getD i p0 < points.getD (i + 1) p0), decide (∃ i < n, points.getD (i + 1) p0 < points.getD i p0)) := by
  induction n with
  | zero => simp
  | succ n ih =>
    rw [List.range_succ, List.foldl_append, ih]
    have ex : ∀ P : ℕ → Prop, (∃ i < n + 1, P i) ↔ (∃ i < n, P i) ∨ P n := by
      intro P
      constructor
      · rintro ⟨i, hi, h⟩
        rcases Nat.lt_succ_iff_lt_or_eq.mp hi with h' | rfl
        · exact Or.inl ⟨i, h', h⟩
        · exact Or.inr h
      · rintro (⟨i, hi, h⟩ | h)
        · exact ⟨i, by omega, h⟩
        · exact ⟨n, by omega, h⟩
    simp only [List.foldl_cons, List.foldl_nil, ex]
    rcases lt_trichotomy (points.getD n p0) (points.getD (n + 1) p0) with h | h | h
    · simp [h, not_lt.mpr h.le, -List.getD_eq_getElem?_getD]
    · simp [h, -List.getD_eq_getElem?_getD]
    · simp [h, not_lt.mpr h.le, -List.getD_eq_getElem?_getD]

/-- C23: `is_monotonic` is true exactly for lists that are nondecreasing or nonincreasing. -/
theorem C23_is_monotonic (l : List K) : is_monotonic l = true ↔ l.Pairwise (· ≤ ·) ∨ l.Pairwise (· ≥ ·) := by
  rcases l with _ | ⟨a, _ | ⟨b, l⟩⟩
  · simp [is_monotonic]
  · simp [is_monotonic]
  · have hle : (a :: b :: l).Pairwise (· ≤ ·) ↔ ∀ i < (a :: b :: l).length - 1,
        (a :: b :: l).getD i a ≤ (a :: b :: l).getD (i + 1) a := by
      rw [← List.isChain_iff_pairwise, List.isChain_iff_getElem]
      constructor
      · intro h i hi
        rw [List.getD_eq_getElem _ _ (by omega), List.getD_eq_getElem _ _ (by omega)]
        exact h i (by omega)
      · intro h i hi
        have := h i (by omega)
        rwa [List.getD_eq_getElem _ _ (by omega), List.getD_eq_getElem _ _ (by omega)] at this
    have hge : (a :: b :: l).Pairwise (· ≥ ·) ↔ ∀ i < (a :: b :: l).length - 1,
        (a :: b :: l).getD i a ≥ (a :: b :: l).getD (i + 1) a := by
      rw [← List.isChain_iff_pairwise, List.isChain_iff_getElem]
      constructor
      · intro h i hi
        rw [List.getD_eq_getElem _ _ (by omega), List.getD_eq_getElem _ _ (by omega)]
        exact h i (by omega)
      · intro h i hi
        have := h i (by omega)
        rwa [List.getD_eq_getElem _ _ (by omega), List.getD_eq_getElem _ _ (by omega)] at this
    rw [hle, hge]
    simp only [is_monotonic]
    rw [mono_loop]
    simp only [Bool.not_eq_true', Bool.and_eq_false_iff, decide_eq_false_iff_not, not_exists, not_and, not_lt]
    exact or_comm

example : is_monotonic [3, 2, 2, (1 : ℤ)] = true ∧ is_monotonic [1, 3, (2 : ℤ)] = false := by decide +kernel
example : is_increasing [1, 2, (5 : ℤ)] = true ∧ is_increasing [1, 2, (2 : ℤ)] = false := by decide +kernel
end Mono

section Close
variable {K : Type _} [Field K] [LinearOrder K] [IsStrictOrderedRing K]

/-- C24: `isclose(a, b)` decides `|a - b| ≤ max (rel_tol * max |a| |b|) abs_tol`; negative tolerances raise `ValueError`. -/
theorem C24_isclose (a b rt at_ : K) :
    (0 ≤ rt → 0 ≤ at_ → isclose a b rt at_ = .ok (decide (|a - b| ≤ max (rt * max |a| |b|) at_))) ∧
    (rt < 0 ∨ at_ < 0 → isclose a b rt at_ = .error .valueError) := by
  refine ⟨fun h1 h2 => ?_, fun h => by simp [isclose, h]⟩
  rw [isclose, if_neg (by rw [not_or]; exact ⟨not_lt.mpr h1, not_lt.mpr h2⟩)]
  split_ifs with hab
  · subst hab
    have : |a - a| ≤ max (rt * max |a| |a|) at_ := by rw [sub_self, abs_zero]; exact le_max_of_le_right h2
    simp only [this, decide_true]
  · simp only [Except.ok.injEq, decide_eq_decide]
    rw [le_max_iff, mul_max_of_nonneg _ _ h1, le_max_iff]
    tauto

/-- C24: `isclose` is reflexive, symmetric, and monotone in both tolerances. -/
theorem C24_isclose_laws (a b rt at_ rt' at' : K) (h1 : 0 ≤ rt) (h2 : 0 ≤ at_) (h3 : rt ≤ rt') (h4 : at_ ≤ at') :
    isclose a a rt at_ = .ok true ∧ isclose a b rt at_ = isclose b a rt at_ ∧
    (isclose a b rt at_ = .ok true → isclose a b rt' at' = .ok true) := by
  rw [(C24_isclose a a rt at_).1 h1 h2, (C24_isclose a b rt at_).1 h1 h2, (C24_isclose b a rt at_).1 h1 h2,
    (C24_isclose a b rt' at').1 (h1.trans h3) (h2.trans h4)]
  refine ⟨?_, by rw [abs_sub_comm, max_comm |a|], fun h => ?_⟩
  · simp only [sub_self, abs_zero, Except.ok.injEq, decide_eq_true_eq]; exact le_max_of_le_right h2
  · simp only [Except.ok.injEq, decide_eq_true_eq] at h ⊢
    exact h.trans (max_le_max (mul_le_mul_of_nonneg_right h3 (le_max_of_le_left (abs_nonneg _))) h4)

example : isclose (1 : ℚ) (1 + 1/10^10) (1/10^9) 0 = .ok true ∧ isclose (1 : ℚ) 2 (1/10^9) 0 = .ok false := by decide +kernel
end Close

section Normalize
variable {K : Type _} [Field K] [DecidableEq K]

/-- C36: `normalize` divides every value by the sum (so ratios are kept and the result sums to one); it raises
`ZeroDivisionError` exactly when the values sum to zero. -/
theorem C36_normalize (v : List K) :
    (v.sum ≠ 0 → ∃ w, normalize v = .ok w ∧ w.length = v.length ∧ w.sum = 1 ∧
      (∀ i < v.length, w.getD i 0 = v.getD i 0 / v.sum) ∧
      ∀ i j, w.getD i 0 * v.getD j 0 = w.getD j 0 * v.getD i 0) ∧
    (v.sum = 0 ↔ normalize v = .error .zeroDivisionError) := by
  have get : ∀ (t : K) i, (v.map fun x => x * t).getD i 0 = v.getD i 0 * t := by
    intro t i
    by_cases hi : i < v.length
    · rw [getD_map' _ _ _ _ hi, List.getD_eq_getElem _ _ hi]
    · rw [List.getD_eq_default _ _ (by simpa using hi), List.getD_eq_default _ _ (by omega), zero_mul]
  have hsum : ∀ t : K, (v.map fun x => x * t).sum = v.sum * t := fun t => by rw [List.sum_map_mul_right, List.map_id']
  refine ⟨fun h => ⟨v.map fun x => x * (1 / v.sum), by simp [Seq.normalize, pdiv_ok h], by simp, ?_, ?_, ?_⟩, fun h => ?_, fun h => ?_⟩
  · rw [hsum]; field_simp
  · intro i _; rw [get]; ring
  · intro i j; rw [get, get]; ring
  · simp [Seq.normalize, h]
  · by_contra hne; simp [Seq.normalize, pdiv_ok hne] at h

example : normalize [3, 2, (1 : ℚ)] = .ok [1/2, 1/3, 1/6] := by decide +kernel
end Normalize

section Caching
variable {X A R : Type _} [DecidableEq X]

/-- C80: over every history of calls, a cached single-argument function returns what the function itself returns, and the
underlying function is run at most once for each argument at which it succeeds: a call runs it iff no earlier call in the
history returned a value at the same argument. -/
theorem C80_cache_transparent (f : X → Py R) (calls : List X) :
    let out := runCalls (fun x (_ : Unit) => f x) [] (calls.map fun x => (x, ()))
    out.map (·.1) = calls.map f ∧
    ∀ i (hi : i < calls.length), (out.getD i (.error .exception, false)).2 = true ↔
      ¬ (calls[i] ∈ calls.take i ∧ ∃ v, f calls[i] = .ok v) := by
  suffices H : ∀ (calls : List X) (c : Cache X R) (seen : List X),
      (∀ x v, c.lookup x = some v → f x = .ok v) → (∀ x, (c.lookup x).isSome ↔ x ∈ seen ∧ ∃ v, f x = .ok v) →
      (runCalls (fun x (_ : Unit) => f x) c (calls.map fun x => (x, ()))).map (·.1) = calls.map f ∧
      ∀ i (hi : i < calls.length), ((runCalls (fun x (_ : Unit) => f x) c (calls.map fun x => (x, ()))).getD i
        (.error .exception, false)).2 = true ↔ ¬ ((calls[i] ∈ seen ∨ calls[i] ∈ calls.take i) ∧ ∃ v, f calls[i] = .ok v) by
    have := H calls [] [] (by simp) (by simp)
    simpa using this
  intro calls
  induction calls with
  | nil => intro c seen _ _; simp [runCalls]
  | cons x calls ih =>
    intro c seen h1 h2
    simp only [List.map_cons, runCalls]
    cases hl : c.lookup x with
    | some v =>
      have hf := h1 x v hl
      have hx := (h2 x).mp (by simp [hl])
      simp only [cachedCall, hl]
      obtain ⟨g1, g2⟩ := ih c (x :: seen) h1 (fun y => by
        rw [h2 y, List.mem_cons]
        constructor
        · rintro ⟨a, b⟩; exact ⟨Or.inr a, b⟩
        · rintro ⟨rfl | a, b⟩
          · exact hx
          · exact ⟨a, b⟩)
      refine ⟨by rw [g1, hf], fun i hi => ?_⟩
      rcases i with _ | i
      · simp [hx.1, hf]
      · have := g2 i (by simpa using hi)
        simp only [List.getD_cons_succ, List.getElem_cons_succ, List.take_succ_cons, List.mem_cons] at this ⊢
        rw [this, or_assoc, or_left_comm]
    | none =>
      have hx : ¬ (x ∈ seen ∧ ∃ v, f x = .ok v) := fun h => by have := (h2 x).mpr h; simp [hl] at this
      cases hf : f x with
      | ok v =>
        simp only [cachedCall, hl, hf]
        obtain ⟨g1, g2⟩ := ih ((x, v) :: c) (x :: seen) (fun y w hy => by
            rw [List.lookup_cons] at hy
            by_cases e : y = x
            · subst e; simp at hy; rw [hf, hy]
            · simp [beq_eq_false_iff_ne.mpr e] at hy; exact h1 y w hy) (fun y => by
            rw [List.lookup_cons]
            by_cases e : y = x
            · subst e; simp [hf]
            · simp [beq_eq_false_iff_ne.mpr e, h2 y, e])
        refine ⟨by rw [g1], fun i hi => ?_⟩
        rcases i with _ | i
        · simpa using fun h => (fun w hw => hx ⟨h, w, hw⟩)
        · have := g2 i (by simpa using hi)
          simp only [List.getD_cons_succ, List.getElem_cons_succ, List.take_succ_cons, List.mem_cons] at this ⊢
          rw [this, or_assoc, or_left_comm]
      | error e =>
        simp only [cachedCall, hl, hf]
        obtain ⟨g1, g2⟩ := ih c (x :: seen) h1 (fun y => by
          rw [h2 y, List.mem_cons]
          constructor
          · rintro ⟨a, b⟩; exact ⟨Or.inr a, b⟩
          · rintro ⟨rfl | a, b⟩
            · obtain ⟨v, hv⟩ := b; rw [hf] at hv; simp at hv
            · exact ⟨a, b⟩)
        refine ⟨by rw [g1], fun i hi => ?_⟩
        rcases i with _ | i
        · simp [hf]
        · have := g2 i (by simpa using hi)
          simp only [List.getD_cons_succ, List.getElem_cons_succ, List.take_succ_cons, List.mem_cons] at this ⊢
          rw [this, or_assoc, or_left_comm]

/-- C80 finding: the cache key is the first argument only; a second call with the same first argument and different extra
arguments returns the stale first answer. -/
theorem C80_cache_ignores_args :
    (runCalls (fun (x a : ℤ) => (.ok (x + a) : Py ℤ)) [] [(1, 1), (1, 5)]).map (·.1) = [.ok 2, .ok 2] ∧
    (.ok 2 : Py ℤ) ≠ .ok (1 + 5) := by decide

end Caching

end Verif
