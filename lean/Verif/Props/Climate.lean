import Verif.Model.Climate
import Verif.Lemmas.Tactic
import Mathlib.Algebra.BigOperators.Fin
import Mathlib.Algebra.Order.BigOperators.Group.List

/-! C128: weather records. -/

namespace Verif.Climate

/-! ### Specification -/

/-- the arithmetic mean of a nonempty list -/
noncomputable def mean (l : List ℝ) : ℝ := l.sum / l.length

/-- the values recorded in month `m` of the days that belong to the years from `o` to `n` -/
def recorded (o n : ℤ) (m : Fin 12) (data : List (Option Day)) : List ℝ :=
  data.filterMap fun d => d.bind fun d => if o ≤ d.year ∧ d.year ≤ n ∧ d.month = m then d.value else none

/-- the means of month `m` over the years from `o` to `n` with at least `k` values in that month -/
noncomputable def yearlyMeans (o n : ℤ) (k : ℕ) (m : Fin 12) (parsed : List (ℤ × List (Option Day))) : List ℝ :=
  ((parsed.filter fun y => decide (o ≤ y.1 ∧ y.1 ≤ n)).map fun y => recorded o n m y.2).filterMap fun l => if k ≤ l.length then some (mean l) else none

/-! ### Proofs -/

lemma mapM_ok {α β : Type} {f : α → Py β} {g : α → β} : ∀ {l : List α}, (∀ x ∈ l, f x = .ok (g x)) → l.mapM f = .ok (l.map g)
  | [], _ => rfl
  | x :: l, h => by
    rw [List.mapM_cons, h x (by simp), Py.ok_bind, mapM_ok (l := l) fun y hy => h y (by simp [hy])]
    rfl

lemma mapM_error {α β : Type} {f : α → Py β} {e : PyErr} : ∀ {l : List α}, (∀ x ∈ l, (∃ y, f x = .ok y) ∨ f x = .error e) → (∃ x ∈ l, f x = .error e) → l.mapM f = .error e
  | [], _, ⟨x, hx, _⟩ => by simp at hx
  | x :: l, h, ⟨z, hz, hze⟩ => by
    rw [List.mapM_cons]
    rcases h x (by simp) with ⟨y, hy⟩ | hx
    · rw [hy, Py.ok_bind, mapM_error (l := l) (fun y hy => h y (by simp [hy])) ?_]
      · rfl
      · rcases List.mem_cons.1 hz with rfl | hz
        · rw [hy] at hze; cases hze
        · exact ⟨z, hz, hze⟩
    · rw [hx]; rfl

lemma mapM_length {α β : Type} {f : α → Py β} : ∀ {l : List α} {r : List β}, l.mapM f = .ok r → r.length = l.length
  | [], r, h => by
    rw [List.mapM_nil] at h
    cases h; rfl
  | x :: l, r, h => by
    rw [List.mapM_cons] at h
    obtain ⟨y, -, h⟩ := Py.bind_eq_ok.1 h
    obtain ⟨ys, hys, h⟩ := Py.bind_eq_ok.1 h
    cases h
    simp [mapM_length hys]

lemma fold_addDay (o n : ℤ) (m : Fin 12) (data : List (Option Day)) : ∀ acc, data.foldl (addDay o n) acc m = ((acc m).1 + (recorded o n m data).sum, (acc m).2 + (recorded o n m data).length) := by
  induction data with
  | nil => intro acc; simp [recorded]
  | cons d ds ih =>
    intro acc
    rw [List.foldl_cons, ih]
    have hr : recorded o n m (d :: ds) = (match d.bind fun d => if o ≤ d.year ∧ d.year ≤ n ∧ d.month = m then d.value else none with | none => recorded o n m ds | some v => v :: recorded o n m ds) := by
      unfold recorded
      rw [List.filterMap_cons]
      split <;> rename_i h <;> rw [h]
    rw [hr]
    rcases d with _ | ⟨y, k, v⟩
    · simp [addDay]
    · by_cases c : y < o ∨ y > n
      · have c' : ¬(o ≤ y ∧ y ≤ n ∧ k = m) := by omega
        simp [addDay, c, c']
      · rcases v with _ | v
        · simp [addDay, c]
        · by_cases hk : k = m
          · subst hk
            have c' : o ≤ y ∧ y ≤ n := by omega
            simp [addDay, c, c']
            constructor <;> ring
          · simp [addDay, c, hk, Function.update_of_ne (Ne.symm hk)]

lemma monthMean_eq {k : ℕ} (hk : 0 < k) (l : List ℝ) : monthMean k (l.sum, l.length) = .ok (if k ≤ l.length then some (mean l) else none) := by
  unfold monthMean
  by_cases c : k ≤ l.length
  · rw [if_neg (by push_cast; omega), if_pos c, pdiv_ok (by simp only [ne_eq, Nat.cast_eq_zero]; omega)]
    rfl
  · rw [if_pos (by push_cast; omega), if_neg c]

lemma yearAverages_eq (o n : ℤ) {k : ℕ} (hk : 0 < k) (data : List (Option Day)) :
    yearAverages o n k data = .ok ((List.finRange 12).map fun m => if k ≤ (recorded o n m data).length then some (mean (recorded o n m data)) else none) := by
  unfold yearAverages
  refine mapM_ok fun m _ => ?_
  rw [fold_addDay, ← monthMean_eq hk]
  simp

lemma yearLoop_eq (o n : ℤ) {k : ℕ} (hk : 0 < k) (parsed : List (ℤ × List (Option Day))) :
    yearLoop (some o) (some n) k parsed = .ok ((parsed.filter fun y => decide (o ≤ y.1 ∧ y.1 ≤ n)).map fun y =>
      (y.1, (List.finRange 12).map fun m => if k ≤ (recorded o n m y.2).length then some (mean (recorded o n m y.2)) else none)) := by
  induction parsed with
  | nil => rfl
  | cons y ys ih =>
    obtain ⟨year, data⟩ := y
    simp only [yearLoop, yearIn, Py.ok_bind, Option.getD_some]
    by_cases c : o ≤ year ∧ year ≤ n
    · simp [c, yearAverages_eq o n hk, ih]
    · simp [c, ih]

lemma fold_years (m : Fin 12) (L : List (ℤ × List (Option ℝ))) : ∀ s : ℝ × ℕ,
    L.foldl (fun s y => addMean s (y.2.getD m none)) s =
      (s.1 + (L.filterMap fun y => y.2.getD m none).sum, s.2 + (L.filterMap fun y => y.2.getD m none).length) := by
  induction L with
  | nil => intro s; simp
  | cons y ys ih =>
    intro s
    rw [List.foldl_cons, ih, List.filterMap_cons]
    cases h : y.2.getD m none <;> simp only [addMean, List.sum_cons, List.length_cons]
    ext
    · simp only; ring
    · simp only; omega

lemma overYears_eq (o n : ℤ) (k : ℕ) (m : Fin 12) (parsed : List (ℤ × List (Option Day))) :
    overYears ((parsed.filter fun y => decide (o ≤ y.1 ∧ y.1 ≤ n)).map fun y =>
      (y.1, (List.finRange 12).map fun m => if k ≤ (recorded o n m y.2).length then some (mean (recorded o n m y.2)) else none)) m =
      (yearlyMeans o n k m parsed).sum /ₚ ((yearlyMeans o n k m parsed).length : ℝ) := by
  unfold overYears
  rw [fold_years, List.filterMap_map]
  have : ((parsed.filter fun y => decide (o ≤ y.1 ∧ y.1 ≤ n)).filterMap ((fun y : ℤ × List (Option ℝ) => y.2.getD m none) ∘ fun y : ℤ × List (Option Day) =>
      (y.1, (List.finRange 12).map fun m => if k ≤ (recorded o n m y.2).length then some (mean (recorded o n m y.2)) else none))) = yearlyMeans o n k m parsed := by
    unfold yearlyMeans
    rw [List.filterMap_map]
    refine List.filterMap_congr fun y _ => ?_
    simp [List.getD]
  rw [this]
  simp

/-- C128: the average of a month (of temperatures or wind speeds) is the mean, over the years in the range with at least `minimum_days` values in that month, of the mean of these values; ZeroDivisionError
exactly when some month has no such year. The yearly means are returned with it, None for a month with too few values. -/
theorem C128_month_average (parsed : List (ℤ × List (Option Day))) (o n : ℤ) {k : ℕ} (hk : 0 < k) :
    ((∀ m, yearlyMeans o n k m parsed ≠ []) →
      ∃ yearly, month_average parsed (some o) (some n) k = .ok ((List.finRange 12).map fun m => mean (yearlyMeans o n k m parsed), yearly) ∧
        yearly.map Prod.fst = (parsed.map Prod.fst).filter (fun y => decide (o ≤ y ∧ y ≤ n))) ∧
    ((∃ m, yearlyMeans o n k m parsed = []) → month_average parsed (some o) (some n) k = .error .zeroDivisionError) := by
  unfold month_average
  rw [yearLoop_eq o n hk, Py.ok_bind]
  constructor
  · intro h
    rw [mapM_ok (g := fun m => mean (yearlyMeans o n k m parsed))]
    · refine ⟨_, rfl, ?_⟩
      rw [List.map_map, List.filter_map]
      rfl
    · intro m _
      have : 0 < (yearlyMeans o n k m parsed).length := List.length_pos_iff.2 (h m)
      rw [overYears_eq, pdiv_ok (by positivity)]
      rfl
  · rintro ⟨m, hm⟩
    rw [mapM_error (e := .zeroDivisionError)]
    · rfl
    · intro m' _
      rw [overYears_eq]
      by_cases c : ((yearlyMeans o n k m' parsed).length : ℝ) = 0
      · right; rw [c]; simp
      · left; exact ⟨_, pdiv_ok c⟩
    · refine ⟨m, List.mem_finRange m, ?_⟩
      rw [overYears_eq, hm]
      simp

/-- C128 (finding): the defaults None for the range of years always fail: TypeError with any year of data, ZeroDivisionError without; a minimum of zero days fails for a month without values. -/
theorem C128_month_defaults (parsed : List (ℤ × List (Option Day))) (newer : Option ℤ) (k : ℤ) :
    (parsed ≠ [] → month_average parsed none newer k = .error .typeError) ∧
    (∀ older newer, month_average [] older newer k = .error .zeroDivisionError) ∧
    (∀ y : ℤ, month_average [(y, [])] (some y) (some y) 0 = .error .zeroDivisionError) := by
  refine ⟨fun h => ?_, fun o n => ?_, fun y => ?_⟩
  · obtain ⟨⟨y, d⟩, l, rfl⟩ := List.exists_cons_of_ne_nil h
    simp [month_average, yearLoop, yearIn]
  · simp only [month_average, yearLoop, Py.ok_bind]
    rw [mapM_error (e := .zeroDivisionError)]
    · rfl
    · intro m _; right; simp [overYears]
    · exact ⟨0, List.mem_finRange 0, by simp [overYears]⟩
  · simp only [month_average, yearLoop, yearIn, Py.ok_bind, le_refl, and_self, decide_true, if_true, yearAverages, Option.getD_some, List.foldl_nil]
    rw [mapM_error (e := .zeroDivisionError)]
    · rfl
    · intro m _; right; simp [monthMean]
    · exact ⟨0, List.mem_finRange 0, by simp [monthMean]⟩

lemma mean_bounds {a b : ℝ} {l : List ℝ} (hl : l ≠ []) (h : ∀ x ∈ l, a ≤ x ∧ x ≤ b) : a ≤ mean l ∧ mean l ≤ b := by
  have hp : (0 : ℝ) < l.length := by exact_mod_cast List.length_pos_iff.2 hl
  unfold mean
  rw [le_div_iff₀ hp, div_le_iff₀ hp]
  constructor
  · have := List.card_nsmul_le_sum l a fun x hx => (h x hx).1
    rw [nsmul_eq_mul] at this
    linarith
  · have := List.sum_le_card_nsmul l b fun x hx => (h x hx).2
    rw [nsmul_eq_mul] at this
    linarith

/-- C128: the averages lie between the smallest and the largest value of the years in range, and depend neither on the order of the years nor on that of the days in them. -/
theorem C128_month_bounds (parsed : List (ℤ × List (Option Day))) (o n : ℤ) {k : ℕ} (hk : 0 < k) {r : List ℝ} {yearly : List (ℤ × List (Option ℝ))}
    (h : month_average parsed (some o) (some n) k = .ok (r, yearly)) :
    (∀ a b : ℝ, (∀ y ∈ parsed, o ≤ y.1 → y.1 ≤ n → ∀ d ∈ y.2, ∀ d', d = some d' → ∀ v, d'.value = some v → a ≤ v ∧ v ≤ b) → ∀ x ∈ r, a ≤ x ∧ x ≤ b) ∧
    (∀ parsed', parsed.Perm parsed' → ∃ yearly', month_average parsed' (some o) (some n) k = .ok (r, yearly')) := by
  have hne : ∀ m, yearlyMeans o n k m parsed ≠ [] := by
    by_contra hc
    push Not at hc
    rw [(C128_month_average parsed o n hk).2 hc] at h
    cases h
  obtain ⟨y1, h1, -⟩ := (C128_month_average parsed o n hk).1 hne
  rw [h1] at h
  simp only [Except.ok.injEq, Prod.mk.injEq] at h
  obtain ⟨rfl, rfl⟩ := h
  constructor
  · intro a b hab x hx
    simp only [List.mem_map, List.mem_finRange, true_and] at hx
    obtain ⟨m, rfl⟩ := hx
    refine mean_bounds (hne m) fun z hz => ?_
    simp only [yearlyMeans, List.mem_filterMap, List.mem_map, List.mem_filter, decide_eq_true_eq] at hz
    obtain ⟨l, ⟨y, ⟨hy, hy'⟩, rfl⟩, hl⟩ := hz
    split_ifs at hl with c
    cases hl
    refine mean_bounds (fun h0 => by rw [h0] at c; simp at c; omega) fun v hv => ?_
    simp only [recorded, List.mem_filterMap, Option.bind_eq_some_iff] at hv
    obtain ⟨d, hd, d', hd', hv⟩ := hv
    split_ifs at hv with c'
    exact hab y hy hy'.1 hy'.2 d hd d' hd' v hv
  · intro p' hp
    have hperm : ∀ m, (yearlyMeans o n k m parsed).Perm (yearlyMeans o n k m p') := fun m => ((hp.filter _).map _).filterMap _
    have hm : ∀ m, mean (yearlyMeans o n k m parsed) = mean (yearlyMeans o n k m p') := fun m => by
      unfold mean; rw [(hperm m).sum_eq, (hperm m).length_eq]
    obtain ⟨y2, h2, -⟩ := (C128_month_average p' o n hk).1 fun m hc => hne m (by rw [← List.length_eq_zero_iff, (hperm m).length_eq, hc]; rfl)
    refine ⟨y2, ?_⟩
    rw [h2]
    simp only [hm]

lemma firstBest_spec (better : ℝ → ℝ → Prop) [DecidableRel better] (irr : ∀ a, ¬better a a) (asy : ∀ a b, better a b → ¬better b a) (ng : ∀ a b c, better a b → ¬better c b → better a c) :
    ∀ l : List ℝ, ∀ i y, firstBest better l = some (i, y) → l[i]? = some y ∧ (∀ x ∈ l, ¬better x y) ∧ ∀ j x, j < i → l[j]? = some x → better y x
  | [], i, y, h => by simp [firstBest] at h
  | x :: xs, i, y, h => by
    rw [firstBest] at h
    cases hb : firstBest better xs with
    | none =>
      have : xs = [] := by
        cases xs with
        | nil => rfl
        | cons a as => simp [firstBest] at hb
      subst this
      rw [hb] at h
      simp only [Option.some.injEq, Prod.mk.injEq] at h
      obtain ⟨rfl, rfl⟩ := h
      simp [irr]
    | some p =>
      obtain ⟨i', y'⟩ := p
      rw [hb] at h
      obtain ⟨h1, h2, h3⟩ := firstBest_spec better irr asy ng xs i' y' hb
      simp only [Option.some.injEq] at h
      split_ifs at h with c
      · simp only [Prod.mk.injEq] at h
        obtain ⟨rfl, rfl⟩ := h
        refine ⟨by simpa using h1, ?_, ?_⟩
        · intro z hz
          rcases List.mem_cons.1 hz with rfl | hz
          · exact asy _ _ c
          · exact h2 z hz
        · intro j z hj hz
          cases j with
          | zero => simp at hz; rw [← hz]; exact c
          | succ j => exact h3 j z (by omega) (by simpa using hz)
      · simp only [Prod.mk.injEq] at h
        obtain ⟨rfl, rfl⟩ := h
        refine ⟨by simp, ?_, by intro j _ hj; omega⟩
        intro z hz
        rcases List.mem_cons.1 hz with rfl | hz
        · exact irr _
        · exact fun hc => h2 z hz (ng _ _ _ hc c)

lemma firstBest_some (better : ℝ → ℝ → Prop) [DecidableRel better] {l : List ℝ} (h : l ≠ []) : ∃ i y, firstBest better l = some (i, y) := by
  obtain ⟨x, xs, rfl⟩ := List.exists_cons_of_ne_nil h
  exact ⟨_, _, rfl⟩

/-- C128: the coldest and the warmest month are months (counted from 0) of the least and the greatest average, and the first ones of these; they fail when the averages do. -/
theorem C128_extreme_months (parsed : List (ℤ × List (Option Day))) (older newer : Option ℤ) (k : ℤ) :
    (∀ r yearly, month_average parsed older newer k = .ok (r, yearly) → r.length = 12 ∧
      (∃ (i : ℕ) (T : ℝ), coldest_month parsed older newer k = .ok i ∧ r[i]? = some T ∧ (∀ x ∈ r, T ≤ x) ∧ ∀ (j : ℕ) x, j < i → r[j]? = some x → T < x) ∧
      ∃ (i : ℕ) (T : ℝ), warmest_month parsed older newer k = .ok i ∧ r[i]? = some T ∧ (∀ x ∈ r, x ≤ T) ∧ ∀ (j : ℕ) x, j < i → r[j]? = some x → x < T) ∧
    (∀ e, month_average parsed older newer k = .error e → coldest_month parsed older newer k = .error e ∧ warmest_month parsed older newer k = .error e) := by
  constructor
  · intro r yearly h
    have hl : r.length = 12 := by
      unfold month_average at h
      obtain ⟨y, -, h⟩ := Py.bind_eq_ok.1 h
      obtain ⟨a, ha, h⟩ := Py.bind_eq_ok.1 h
      simp only [Py.pure_eq, Except.ok.injEq, Prod.mk.injEq] at h
      rw [← h.1, mapM_length ha, List.length_finRange]
    have hne : r ≠ [] := fun h0 => by rw [h0] at hl; cases hl
    refine ⟨hl, ?_, ?_⟩
    · obtain ⟨i, T, hb⟩ := firstBest_some (fun a b => a < b) hne
      obtain ⟨h1, h2, h3⟩ := firstBest_spec (fun a b => a < b) (fun a => lt_irrefl a) (fun a b => lt_asymm) (fun a b c h h' => lt_of_lt_of_le h (not_lt.1 h')) r i T hb
      refine ⟨i, T, ?_, h1, fun x hx => not_lt.1 (h2 x hx), h3⟩
      simp only [coldest_month, h, Py.ok_bind, hb]
      rfl
    · obtain ⟨i, T, hb⟩ := firstBest_some (fun a b => a > b) hne
      obtain ⟨h1, h2, h3⟩ := firstBest_spec (fun a b => a > b) (fun a => lt_irrefl a) (fun a b h => lt_asymm h) (fun a b c h h' => lt_of_le_of_lt (not_lt.1 h') h) r i T hb
      refine ⟨i, T, ?_, h1, fun x hx => not_lt.1 (h2 x hx), h3⟩
      simp only [warmest_month, h, Py.ok_bind, hb]
      rfl
  · intro e h
    constructor <;> simp only [coldest_month, warmest_month, h] <;> rfl

/-- C128: degree days are the excess over the base temperature, or zero (finding: "heating" counts the excess of the temperature over the base and "cooling" the deficit, the reverse of the usual terms; the two functions
exchange their arguments), and without truncation the signed difference. -/
theorem C128_degree_days (T b : ℝ) :
    heating_degree_days T b = max (T - b) 0 ∧ cooling_degree_days T b = max (b - T) 0 ∧
    heating_degree_days T b false = T - b ∧ cooling_degree_days T b false = b - T ∧
    cooling_degree_days T b = heating_degree_days b T ∧ heating_degree_days T b - cooling_degree_days T b = T - b := by
  have h1 : heating_degree_days T b = max (T - b) 0 := by
    simp only [heating_degree_days, true_and]
    split_ifs with c
    · rw [max_eq_right c.le]
    · rw [max_eq_left (not_lt.1 c)]
  have h2 : cooling_degree_days T b = max (b - T) 0 := by
    simp only [cooling_degree_days, true_and]
    split_ifs with c
    · rw [max_eq_right c.le]
    · rw [max_eq_left (not_lt.1 c)]
  refine ⟨h1, h2, by simp [heating_degree_days], by simp [cooling_degree_days], rfl, ?_⟩
  rw [h1, h2]
  rcases le_total T b with c | c
  · rw [max_eq_right (by linarith), max_eq_left (by linarith)]; ring
  · rw [max_eq_left (by linarith), max_eq_right (by linarith)]; ring

/-- a year with a day of 280 K in every month, for a minimum of one day -/
example : ∃ parsed : List (ℤ × List (Option Day)), ∀ m, yearlyMeans 2000 2001 1 m parsed ≠ [] := by
  refine ⟨[(2000, (List.finRange 12).map fun m => some ⟨2000, m, some 280⟩)], fun m => ?_⟩
  have h : (280 : ℝ) ∈ recorded 2000 2001 m ((List.finRange 12).map fun m => some ⟨2000, m, some 280⟩) :=
    List.mem_filterMap.2 ⟨some ⟨2000, m, some 280⟩, List.mem_map.2 ⟨m, List.mem_finRange m, rfl⟩, by simp⟩
  have h1 : 1 ≤ (recorded 2000 2001 m ((List.finRange 12).map fun m => some ⟨2000, m, some 280⟩)).length := List.length_pos_of_mem h
  simp [yearlyMeans, h1]

end Verif.Climate
