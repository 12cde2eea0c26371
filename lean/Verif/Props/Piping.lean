import Verif.Model.Piping
import Verif.Props.Interp
import Verif.Props.Translate

/-!
# C37, C38: pipe and wire schedule lookups
-/

namespace Verif.Piping
open Verif.Translate Verif.Seq

/-- Specification: a pipe as the user sees it: nominal size, inner and outer diameter and wall thickness in metres. -/
structure Pipe where
  nps : ℚ
  Di : ℚ
  Do : ℚ
  t : ℚ
  deriving DecidableEq

/-- Specification: the pipes of a schedule, the rows of its table converted from mm. -/
def pipes (T : Table) : List Pipe :=
  (List.range T.nps.length).map fun i => ⟨T.nps.getD i 0, T.di.getD i 0 / 1000, T.od.getD i 0 / 1000, T.t.getD i 0 / 1000⟩

/-- what the API returns for a pipe -/
def Pipe.out (p : Pipe) : ℚ × ℚ × ℚ × ℚ := (p.nps, p.Di, p.Do, p.t)

/-- all that the theorems need of a table; checked for every table below -/
structure Table.Good (T : Table) : Prop where
  l1 : T.di.length = T.nps.length
  l2 : T.od.length = T.nps.length
  l3 : T.t.length = T.nps.length
  pos : 0 < T.nps.length
  di : T.di.Pairwise (· < ·)
  od : T.od.Pairwise (· < ·)
  nps : T.nps.Pairwise (· < ·)

/-- the whole table of schedules is well formed (every one of them, by evaluation) -/
theorem all_good : ∀ p ∈ schedule_lookup, p.2.Good := by
  have h : schedule_lookup.all (fun p => decide (p.2.di.length = p.2.nps.length ∧ p.2.od.length = p.2.nps.length ∧
      p.2.t.length = p.2.nps.length ∧ 0 < p.2.nps.length ∧ p.2.di.Pairwise (· < ·) ∧ p.2.od.Pairwise (· < ·) ∧
      p.2.nps.Pairwise (· < ·))) = true := by decide +kernel
  intro p hp
  obtain ⟨a, b, c, d, e, f, g⟩ := of_decide_eq_true (List.all_eq_true.mp h p hp)
  exact ⟨a, b, c, d, e, f, g⟩

theorem row_ok {T : Table} (h : T.Good) {i : ℕ} (hi : i < T.nps.length) :
    row T i = .ok (T.nps.getD i 0, T.di.getD i 0, T.od.getD i 0, T.t.getD i 0) := by
  have h1 := h.l1; have h2 := h.l2; have h3 := h.l3
  simp only [row, idx_ok (0 : ℚ) hi, idx_ok (0 : ℚ) (show i < T.di.length by omega), idx_ok (0 : ℚ) (show i < T.od.length by omega),
    idx_ok (0 : ℚ) (show i < T.t.length by omega), Py.ok_bind]
  rfl

theorem pyGet_last {l : List ℚ} (h : 0 < l.length) : pyGet l (-1) = .ok (l.getD (l.length - 1) 0) := by
  have e := pyGet_neg l 1 (by omega) (by omega)
  rw [List.getD_eq_getElem _ _ (by omega)]
  exact e

theorem sorted_lt {l : List ℚ} (h : l.Pairwise (· < ·)) {i j : ℕ} (hij : i < j) (hj : j < l.length) : l.getD i 0 < l.getD j 0 := by
  rw [List.getD_eq_getElem _ _ (by omega), List.getD_eq_getElem _ _ hj]
  exact List.pairwise_iff_getElem.mp h i j (by omega) hj hij

theorem sorted_le {l : List ℚ} (h : l.Pairwise (· < ·)) {i j : ℕ} (hij : i ≤ j) (hj : j < l.length) : l.getD i 0 ≤ l.getD j 0 := by
  rcases Nat.eq_or_lt_of_le hij with h' | h'
  · rw [h']
  · exact (sorted_lt h h' hj).le

/-- the scan, once and for both diameters -/
theorem diGo_spec {T : Table} (h : T.Good) (v : ℚ) : ∀ n i, n + i = T.di.length → (∀ j < i, T.di.getD j 0 < v) →
    (∃ k, i ≤ k ∧ k < T.di.length ∧ v ≤ T.di.getD k 0 ∧ (∀ j < k, T.di.getD j 0 < v) ∧ diGo v T n i = row T k) ∨
    ((∀ j < T.di.length, T.di.getD j 0 < v) ∧ diGo v T n i = .error .valueError) := by
  intro n
  have hp := h.pos; have h1 := h.l1
  induction n with
  | zero => intro i hi hb; exact .inr ⟨fun j hj => hb j (by omega), rfl⟩
  | succ n ih =>
    intro i hi hb
    simp only [diGo, pyGet_last (show 0 < T.di.length by omega), Py.ok_bind, idx_ok (0 : ℚ) (show i < T.di.length by omega)]
    by_cases c : T.di.getD (T.di.length - 1) 0 < v
    · rw [if_pos c]
      exact .inr ⟨fun j hj => (sorted_le h.di (by omega) (by omega)).trans_lt c, rfl⟩
    · rw [if_neg c]
      by_cases c1 : T.di.getD i 0 ≥ v
      · rw [if_pos c1]
        exact .inl ⟨i, le_rfl, by omega, c1, hb, rfl⟩
      · rw [if_neg c1]
        rcases ih (i + 1) (by omega) (by
          intro j hj
          rcases Nat.eq_or_lt_of_le (Nat.lt_succ_iff.mp hj) with e | e
          · subst e; exact not_le.mp c1
          · exact hb j e) with ⟨k, a, b, c, d, e⟩ | ⟨a, b⟩
        · exact .inl ⟨k, by omega, b, c, d, e⟩
        · exact .inr ⟨a, b⟩

theorem doGo_spec {T : Table} (h : T.Good) (v : ℚ) : ∀ n i, n + i = T.od.length → (∀ j < i, T.od.getD j 0 < v) →
    (∃ k, i ≤ k ∧ k < T.od.length ∧ v ≤ T.od.getD k 0 ∧ (∀ j < k, T.od.getD j 0 < v) ∧ doGo v T n i = row T k) ∨
    ((∀ j < T.od.length, T.od.getD j 0 < v) ∧ doGo v T n i = .error .valueError) := by
  intro n
  have hp := h.pos; have h1 := h.l2
  induction n with
  | zero => intro i hi hb; exact .inr ⟨fun j hj => hb j (by omega), rfl⟩
  | succ n ih =>
    intro i hi hb
    simp only [doGo, pyGet_last (show 0 < T.od.length by omega), Py.ok_bind, idx_ok (0 : ℚ) (show i < T.od.length by omega)]
    by_cases c : T.od.getD (T.od.length - 1) 0 < v
    · rw [if_pos c]
      exact .inr ⟨fun j hj => (sorted_le h.od (by omega) (by omega)).trans_lt c, rfl⟩
    · rw [if_neg c]
      by_cases c1 : T.od.getD i 0 ≥ v
      · rw [if_pos c1]
        exact .inl ⟨i, le_rfl, by omega, c1, hb, rfl⟩
      · rw [if_neg c1]
        rcases ih (i + 1) (by omega) (by
          intro j hj
          rcases Nat.eq_or_lt_of_le (Nat.lt_succ_iff.mp hj) with e | e
          · subst e; exact not_le.mp c1
          · exact hb j e) with ⟨k, a, b, c, d, e⟩ | ⟨a, b⟩
        · exact .inl ⟨k, by omega, b, c, d, e⟩
        · exact .inr ⟨a, b⟩

theorem npsGo_spec {T : Table} (h : T.Good) (v : ℚ) : ∀ n i, n + i = T.nps.length → (∀ j < i, T.nps.getD j 0 ≠ v) →
    (∃ k, k < T.nps.length ∧ v = T.nps.getD k 0 ∧ npsGo v T n i = row T k) ∨
    ((∀ j < T.nps.length, T.nps.getD j 0 ≠ v) ∧ npsGo v T n i = .error .valueError) := by
  intro n
  induction n with
  | zero => intro i hi hb; exact .inr ⟨fun j hj => hb j (by omega), rfl⟩
  | succ n ih =>
    intro i hi hb
    simp only [npsGo, Py.ok_bind, idx_ok (0 : ℚ) (show i < T.nps.length by omega)]
    by_cases c1 : T.nps.getD i 0 = v
    · rw [if_pos c1]
      exact .inl ⟨i, by omega, c1.symm, rfl⟩
    · rw [if_neg c1]
      rcases ih (i + 1) (by omega) (by
        intro j hj
        rcases Nat.eq_or_lt_of_le (Nat.lt_succ_iff.mp hj) with e | e
        · subst e; exact c1
        · exact hb j e) with ⟨k, a, b, c⟩ | ⟨a, b⟩
      · exact .inl ⟨k, a, b, c⟩
      · exact .inr ⟨a, b⟩

theorem lookup_mem {α : Type _} {l : List (String × α)} {k : String} {v : α} (h : l.lookup k = some v) : (k, v) ∈ l := by
  induction l with
  | nil => simp at h
  | cons a t ih =>
    obtain ⟨a1, a2⟩ := a
    rw [List.lookup_cons] at h
    by_cases hk : (k == a1) = true
    · rw [hk] at h
      obtain rfl := Option.some.inj h
      rw [eq_of_beq hk]; exact List.mem_cons_self
    · rw [Bool.not_eq_true] at hk
      rw [hk] at h
      exact List.mem_cons_of_mem _ (ih h)

theorem mem_pipes {T : Table} {i : ℕ} (hi : i < T.nps.length) :
    (⟨T.nps.getD i 0, T.di.getD i 0 / 1000, T.od.getD i 0 / 1000, T.t.getD i 0 / 1000⟩ : Pipe) ∈ pipes T :=
  List.mem_map.mpr ⟨i, List.mem_range.mpr hi, rfl⟩

/-- C37: an inner diameter request: for every known schedule and every requested diameter (whatever `Do` and `NPS` are), either the pipe of
the schedule with the least inner diameter not below the request is returned, or every pipe of the schedule is too small and `ValueError` is
raised. -/
theorem C37_Di (s : Schedule) {T : Table} (hT : schedule_lookup.lookup s.key = some T) (Di : ℚ) (Do NPS : Option ℚ) :
    (∃ p ∈ pipes T, nearest_pipe Do (some Di) NPS s = .ok p.out ∧ Di ≤ p.Di ∧ ∀ q ∈ pipes T, Di ≤ q.Di → p.Di ≤ q.Di) ∨
    (nearest_pipe Do (some Di) NPS s = .error .valueError ∧ ∀ q ∈ pipes T, q.Di < Di) := by
  have h := all_good _ (lookup_mem hT)
  have h1 := h.l1
  dsimp only at h h1
  rcases diGo_spec h (Di * 1000) T.di.length 0 (by omega) (by simp) with ⟨k, -, a, b, c, e⟩ | ⟨a, e⟩
  · left
    refine ⟨_, mem_pipes (show k < T.nps.length by omega), ?_, ?_, ?_⟩
    · simp only [nearest_pipe, hT, Option.map_some, Di_lookup, e, row_ok h (show k < T.nps.length by omega), Py.ok_bind, Py.pure_eq,
        Pipe.out, mul_one_div]
    · show Di ≤ T.di.getD k 0 / 1000
      rw [le_div_iff₀ (by norm_num)]; exact b
    · intro q hq hqi
      obtain ⟨j, hj, rfl⟩ := List.mem_map.mp hq
      have hj := List.mem_range.mp hj
      show T.di.getD k 0 / 1000 ≤ T.di.getD j 0 / 1000
      have hqi : Di ≤ T.di.getD j 0 / 1000 := hqi
      rw [le_div_iff₀ (by norm_num)] at hqi
      have hkj : k ≤ j := by
        by_contra hc
        exact absurd (c j (by omega)) (not_lt.mpr hqi)
      exact div_le_div_of_nonneg_right (sorted_le h.di hkj (by omega)) (by norm_num)
  · right
    refine ⟨?_, ?_⟩
    · simp only [nearest_pipe, hT, Option.map_some, Di_lookup, e, Py.error_bind]
    · intro q hq
      obtain ⟨j, hj, rfl⟩ := List.mem_map.mp hq
      have hj := List.mem_range.mp hj
      show T.di.getD j 0 / 1000 < Di
      rw [div_lt_iff₀ (by norm_num)]
      exact a j (by omega)

/-- C37: the same for an outer diameter request. -/
theorem C37_Do (s : Schedule) {T : Table} (hT : schedule_lookup.lookup s.key = some T) (Do : ℚ) (NPS : Option ℚ) :
    (∃ p ∈ pipes T, nearest_pipe (some Do) none NPS s = .ok p.out ∧ Do ≤ p.Do ∧ ∀ q ∈ pipes T, Do ≤ q.Do → p.Do ≤ q.Do) ∨
    (nearest_pipe (some Do) none NPS s = .error .valueError ∧ ∀ q ∈ pipes T, q.Do < Do) := by
  have h := all_good _ (lookup_mem hT)
  have h1 := h.l2
  dsimp only at h h1
  rcases doGo_spec h (Do * 1000) T.od.length 0 (by omega) (by simp) with ⟨k, -, a, b, c, e⟩ | ⟨a, e⟩
  · left
    refine ⟨_, mem_pipes (show k < T.nps.length by omega), ?_, ?_, ?_⟩
    · simp only [nearest_pipe, hT, Option.map_some, Option.map_none, Do_lookup, e, row_ok h (show k < T.nps.length by omega), Py.ok_bind,
        Py.pure_eq, Pipe.out, mul_one_div]
    · show Do ≤ T.od.getD k 0 / 1000
      rw [le_div_iff₀ (by norm_num)]; exact b
    · intro q hq hqi
      obtain ⟨j, hj, rfl⟩ := List.mem_map.mp hq
      have hj := List.mem_range.mp hj
      show T.od.getD k 0 / 1000 ≤ T.od.getD j 0 / 1000
      have hqi : Do ≤ T.od.getD j 0 / 1000 := hqi
      rw [le_div_iff₀ (by norm_num)] at hqi
      have hkj : k ≤ j := by
        by_contra hc
        exact absurd (c j (by omega)) (not_lt.mpr hqi)
      exact div_le_div_of_nonneg_right (sorted_le h.od hkj (by omega)) (by norm_num)
  · right
    refine ⟨?_, ?_⟩
    · simp only [nearest_pipe, hT, Option.map_some, Option.map_none, Do_lookup, e, Py.error_bind]
    · intro q hq
      obtain ⟨j, hj, rfl⟩ := List.mem_map.mp hq
      have hj := List.mem_range.mp hj
      show T.od.getD j 0 / 1000 < Do
      rw [div_lt_iff₀ (by norm_num)]
      exact a j (by omega)

/-- C37: a nominal size request returns the pipe with exactly that nominal size, which is the only one; an unlisted one raises
`ValueError`. -/
theorem C37_NPS (s : Schedule) {T : Table} (hT : schedule_lookup.lookup s.key = some T) (NPS : ℚ) :
    (∃ p ∈ pipes T, nearest_pipe none none (some NPS) s = .ok p.out ∧ p.nps = NPS ∧ ∀ q ∈ pipes T, q.nps = NPS → q = p) ∨
    (nearest_pipe none none (some NPS) s = .error .valueError ∧ ∀ q ∈ pipes T, q.nps ≠ NPS) := by
  have h := all_good _ (lookup_mem hT)
  dsimp only at h
  rcases npsGo_spec h NPS T.nps.length 0 (by omega) (by simp) with ⟨k, a, b, e⟩ | ⟨a, e⟩
  · left
    refine ⟨_, mem_pipes a, ?_, b.symm, ?_⟩
    · simp only [nearest_pipe, hT, Option.map_none, NPS_lookup, e, row_ok h a, Py.ok_bind, Py.pure_eq, Pipe.out, mul_one_div]
    · intro q hq hqi
      obtain ⟨j, hj, rfl⟩ := List.mem_map.mp hq
      have hj := List.mem_range.mp hj
      have hqi : T.nps.getD j 0 = NPS := hqi
      have hkj : j = k := by
        rcases Nat.lt_trichotomy j k with h' | h' | h'
        · exact absurd (hqi.trans b) (sorted_lt h.nps h' a).ne
        · exact h'
        · exact absurd (hqi.trans b).symm (sorted_lt h.nps h' hj).ne
      subst hkj; rfl
  · right
    refine ⟨?_, ?_⟩
    · simp only [nearest_pipe, hT, Option.map_none, NPS_lookup, e, Py.error_bind]
    · intro q hq
      obtain ⟨j, hj, rfl⟩ := List.mem_map.mp hq
      exact a j (List.mem_range.mp hj)

/-- C37: an unknown schedule raises `ValueError` whatever is asked. (Finding: a known schedule with no request at all ends in
`UnboundLocalError`, not in a message.) -/
theorem C37_errors (s : Schedule) (Do Di NPS : Option ℚ) :
    (schedule_lookup.lookup s.key = none → nearest_pipe Do Di NPS s = .error .valueError) ∧
    (∀ T, schedule_lookup.lookup s.key = some T → nearest_pipe none none none s = .error .unboundLocalError) := by
  constructor
  · intro h; simp only [nearest_pipe, h]
  · intro T h; simp only [nearest_pipe, h, Option.map_none, Py.error_bind]

/-- C37: in every schedule, every pipe's bore, outer diameter and wall agree to a tenth of a millimetre, and the bore is positive. -/
theorem C37_consistent : ∀ p ∈ schedule_lookup, ∀ q ∈ pipes p.2, 0 < q.Di ∧ q.Di < q.Do ∧ |q.Do - 2 * q.t - q.Di| ≤ 1 / 10000 := by
  have h : schedule_lookup.all (fun p => (pipes p.2).all fun q => decide (0 < q.Di ∧ q.Di < q.Do ∧ |q.Do - 2 * q.t - q.Di| ≤ 1 / 10000)) = true := by
    decide +kernel
  intro p hp q hq
  exact of_decide_eq_true (List.all_eq_true.mp (List.all_eq_true.mp h p hp) q hq)

example : nearest_pipe none (some (21/1000)) none (.text "40") = .ok (1, 2664/100000, 334/10000, 338/100000) := by decide +kernel
example : nearest_pipe none (some (21/1000)) none (.num (409/10)) = nearest_pipe none (some (21/1000)) none (.text "40") := by decide +kernel
example : nearest_pipe (some 1) none none (.text "40") = .error .valueError := by decide +kernel
example : ∃ T, schedule_lookup.lookup (Schedule.text "80S").key = some T := ⟨T_80S, rfl⟩

/-! ## C38 -/

/-- all that the theorems need of a wire table -/
structure Wire.Good (W : Wire) : Prop where
  l1 : W.gauges.length = W.inch.length
  pos : 0 < W.inch.length
  dec : W.inch.Pairwise (· > ·)

theorem all_wire : ∀ p ∈ wire_schedules, p.2.Good := by
  have h : wire_schedules.all (fun p => decide (p.2.gauges.length = p.2.inch.length ∧ 0 < p.2.inch.length ∧
      p.2.inch.Pairwise (· > ·))) = true := by decide +kernel
  intro p hp
  obtain ⟨a, b, c⟩ := of_decide_eq_true (List.all_eq_true.mp h p hp)
  exact ⟨a, b, c⟩

/-- C38: the thickness the schedules are searched for is the given one: in inches unchanged, in metres converted at 0.0254 m and rounded to the ninth decimal. -/
theorem C38_inches (t : ℚ) : inches t false = t ∧ |inches t true - t / 0.0254| ≤ 1 / 2 / 10 ^ 9 ∧ ∃ k : ℤ, inches t true = k / 10 ^ 9 := by
  refine ⟨rfl, ?_, _, by simp only [inches, pyRound, if_true]; rfl⟩
  have key : ∀ y : ℚ, |(((if y - ⌊y⌋ < 1 / 2 then ⌊y⌋ else if y - ⌊y⌋ > 1 / 2 then ⌊y⌋ + 1 else if ⌊y⌋ % 2 = 0 then ⌊y⌋ else ⌊y⌋ + 1 : ℤ)) : ℚ) - y| ≤ 1 / 2 := by
    intro y
    have h1 := Int.floor_le y
    have h2 := Int.lt_floor_add_one y
    rw [abs_le]
    split_ifs <;> push_cast <;> constructor <;> linarith
  have h := key (t / (254 / 10000) * 10 ^ 9)
  simp only [inches, pyRound, if_true]
  rw [show (t / 0.0254 : ℚ) = t / (254 / 10000) * 10 ^ 9 / 10 ^ 9 by norm_num, ← sub_div, abs_div, abs_of_pos (show (0:ℚ) < 10 ^ 9 by norm_num)]
  gcongr

/-- C38: the round trip, for every gauge of every schedule, in both units. -/
theorem C38_roundtrip (schedule : String) {W : Wire} (hW : wire_schedules.lookup schedule = some W) (SI : Bool) (g : ℚ) (hg : g ∈ W.gauges) :
    ∃ t, t_from_gauge g SI schedule = .ok t ∧ gauge_from_t t SI schedule = .ok g := by
  have h : wire_schedules.all (fun p => p.2.gauges.all fun g => [true, false].all fun SI =>
      match t_from_gauge g SI p.1 with
      | .ok t => decide (gauge_from_t t SI p.1 = .ok g)
      | .error _ => false) = true := by decide +kernel
  have h1 := List.all_eq_true.mp (List.all_eq_true.mp (List.all_eq_true.mp h _ (lookup_mem hW)) g hg) SI (by cases SI <;> simp)
  dsimp only at h1
  split at h1
  · exact ⟨_, by assumption, of_decide_eq_true h1⟩
  · exact absurd h1 (by simp)

theorem dec_lt {l : List ℚ} (h : l.Pairwise (· > ·)) {i j : ℕ} (hij : i < j) (hj : j < l.length) : l.getD j 0 < l.getD i 0 := by
  rw [List.getD_eq_getElem _ _ hj, List.getD_eq_getElem _ _ (show i < l.length by omega)]
  exact List.pairwise_iff_getElem.mp h i j (by omega) hj hij

theorem gaugeScan_spec (s : List ℚ) (t : ℚ) : ∀ n i, n + i = s.length → 0 < i → (∀ j < i, t ≤ s.getD j 0) →
    ∃ k, i ≤ k ∧ k ≤ s.length ∧ (∀ j < k, t ≤ s.getD j 0) ∧ (k < s.length → s.getD k 0 < t) ∧
      gaugeScan s t n i (some (s.getD (i - 1) 0)) = .ok (some (s.getD (k - 1) 0), if k < s.length then k else k - 1) := by
  intro n
  induction n with
  | zero =>
    intro i hi h0 hb
    refine ⟨i, le_rfl, by omega, hb, by omega, ?_⟩
    simp only [gaugeScan, if_neg (show ¬ i < s.length by omega)]
  | succ n ih =>
    intro i hi h0 hb
    simp only [gaugeScan, idx_ok (0 : ℚ) (show i < s.length by omega), Py.ok_bind]
    by_cases c : s.getD i 0 ≥ t
    · rw [if_pos c]
      obtain ⟨k, a1, a2, a3, a4, a5⟩ := ih (i + 1) (by omega) (by omega) (by
        intro j hj
        rcases Nat.eq_or_lt_of_le (Nat.lt_succ_iff.mp hj) with e | e
        · subst e; exact c
        · exact hb j e)
      exact ⟨k, by omega, a2, a3, a4, a5⟩
    · rw [if_neg c]
      refine ⟨i, le_rfl, by omega, hb, fun _ => not_le.mp c, ?_⟩
      rw [if_pos (by omega)]; rfl

/-- C38: for every schedule and thickness `u` (inches, rounded to nine places when given in metres) within the table: either `u` is a
tabulated thickness and its own gauge is returned, or `u` lies strictly between two neighbouring tabulated thicknesses and one of those two
gauges is returned: the thinner one's exactly when `u` is within a tenth of the gap above it. -/
theorem C38_bracket (schedule : String) {W : Wire} (hW : wire_schedules.lookup schedule = some W) (t : ℚ) (SI : Bool)
    (hlo : W.inch.getD (W.inch.length - 1) 0 ≤ inches t SI) (hhi : inches t SI ≤ W.inch.getD 0 0) :
    (∃ i < W.inch.length, W.inch.getD i 0 = inches t SI ∧ gauge_from_t t SI schedule = .ok (W.gauges.getD i 0)) ∨
    (∃ i, i + 1 < W.inch.length ∧ W.inch.getD (i + 1) 0 < inches t SI ∧ inches t SI < W.inch.getD i 0 ∧
      gauge_from_t t SI schedule = .ok (if inches t SI - W.inch.getD (i + 1) 0 ≤ 1 / 10 * (W.inch.getD i 0 - W.inch.getD (i + 1) 0)
        then W.gauges.getD (i + 1) 0 else W.gauges.getD i 0)) := by
  have h := all_wire _ (lookup_mem hW)
  have h1 := h.l1; have hp := h.pos
  dsimp only at h h1 hp
  have e0 : pyGet W.inch 0 = .ok (W.inch.getD 0 0) := pyGet_nat W.inch 0 hp
  unfold gauge_from_t
  generalize inches t SI = u at *
  simp only [gaugeInches, hW, e0, pyGet_last hp, Py.ok_bind, gt_iff_lt, if_neg (not_lt.mpr hhi)]
  by_cases hm : u ∈ W.inch
  · left
    rw [if_pos hm]
    have hi := List.idxOf_lt_length_iff.mpr hm
    refine ⟨_, hi, ?_, ?_⟩
    · rw [List.getD_eq_getElem _ _ hi]; exact List.getElem_idxOf hi
    · rw [idx_ok (0 : ℚ) (by omega)]
  · right
    rw [if_neg hm]
    have hne : ∀ j < W.inch.length, W.inch.getD j 0 ≠ u := by
      intro j hj e
      rw [List.getD_eq_getElem _ _ hj] at e
      exact hm (e ▸ List.getElem_mem _)
    have first : gaugeScan W.inch u W.inch.length 0 none = gaugeScan W.inch u (W.inch.length - 1) 1 (some (W.inch.getD (1 - 1) 0)) := by
      obtain ⟨n, hn⟩ : ∃ n, W.inch.length = n + 1 := ⟨W.inch.length - 1, by omega⟩
      rw [hn]
      simp only [gaugeScan, idx_ok (0 : ℚ) hp, Py.ok_bind, if_pos hhi, ge_iff_le, Nat.add_sub_cancel, Nat.sub_self, zero_add]
    obtain ⟨k, a1, a2, a3, a4, a5⟩ := gaugeScan_spec W.inch u (W.inch.length - 1) 1 (by omega) (by omega) (by
      intro j hj; obtain rfl : j = 0 := by omega
      exact hhi)
    have hk : k < W.inch.length := by
      by_contra hc
      have := a3 (W.inch.length - 1) (by omega)
      exact hne _ (by omega) (le_antisymm hlo this)
    refine ⟨k - 1, by omega, ?_, ?_, ?_⟩
    · rw [show k - 1 + 1 = k by omega]; exact a4 hk
    · exact lt_of_le_of_ne (a3 _ (by omega)) (hne _ (by omega)).symm
    · rw [first, a5, Py.ok_bind, if_pos hk]
      dsimp only
      rw [if_neg (dec_lt h.dec (show k - 1 < W.inch.length - 1 by omega) (by omega)).ne', idx_ok (0 : ℚ) hk, Py.ok_bind,
        show k - 1 + 1 = k by omega]
      split_ifs
      · rw [idx_ok (0 : ℚ) (by omega)]
      · have e : ((k : ℤ) - 1) = ((k - 1 : ℕ) : ℤ) := by omega
        rw [e, pyGet_nat W.gauges (k - 1) (by omega), List.getD_eq_getElem _ _ (by omega)]

/-- C38: above the table and for an unknown schedule or gauge `ValueError` is raised. -/
theorem C38_errors (schedule : String) (t : ℚ) (SI : Bool) :
    (wire_schedules.lookup schedule = none → gauge_from_t t SI schedule = .error .valueError ∧ t_from_gauge t SI schedule = .error .valueError) ∧
    (∀ W, wire_schedules.lookup schedule = some W → W.inch.getD 0 0 < inches t SI → gauge_from_t t SI schedule = .error .valueError) ∧
    (∀ W, wire_schedules.lookup schedule = some W → t ∉ W.gauges → t_from_gauge t SI schedule = .error .valueError) := by
  refine ⟨fun h => ⟨by simp only [gauge_from_t, gaugeInches, h], by simp only [t_from_gauge, h]⟩, ?_, ?_⟩
  · intro W hW h'
    have h := all_wire _ (lookup_mem hW)
    have hp := h.pos
    dsimp only at hp
    have e0 : pyGet W.inch 0 = .ok (W.inch.getD 0 0) := pyGet_nat W.inch 0 hp
    simp only [gauge_from_t, gaugeInches, hW, e0, pyGet_last hp, Py.ok_bind]
    exact if_pos h'
  · intro W hW h'
    simp only [t_from_gauge, hW, if_neg h']

/-- C38 (finding): below the thinnest entry the function returns that entry's *thickness* in inches as if it were a gauge; it is no gauge of
the schedule at all, for every one of the six schedules. -/
theorem C38_below_is_not_a_gauge (schedule : String) {W : Wire} (hW : wire_schedules.lookup schedule = some W) (t : ℚ) (SI : Bool)
    (hlo : inches t SI < W.inch.getD (W.inch.length - 1) 0) :
    gauge_from_t t SI schedule = .ok (W.inch.getD (W.inch.length - 1) 0) ∧ W.inch.getD (W.inch.length - 1) 0 ∉ W.gauges := by
  have h := all_wire _ (lookup_mem hW)
  have h1 := h.l1; have hp := h.pos
  dsimp only at h h1 hp
  have e0 : pyGet W.inch 0 = .ok (W.inch.getD 0 0) := pyGet_nat W.inch 0 hp
  have hall : ∀ j < W.inch.length, inches t SI < W.inch.getD j 0 := by
    intro j hj
    rcases Nat.eq_or_lt_of_le (show j ≤ W.inch.length - 1 by omega) with e | e
    · rw [e]; exact hlo
    · exact hlo.trans (dec_lt h.dec e (by omega))
  constructor
  · unfold gauge_from_t
    generalize inches t SI = u at *
    simp only [gaugeInches, hW, e0, pyGet_last hp, Py.ok_bind]
    rw [if_neg (not_lt.mpr (hall 0 hp).le), if_neg (by
      intro hm
      obtain ⟨j, hj, e⟩ := List.mem_iff_getElem.mp hm
      have := hall j hj
      rw [List.getD_eq_getElem _ _ hj, e] at this
      exact lt_irrefl _ this)]
    have first : gaugeScan W.inch u W.inch.length 0 none = gaugeScan W.inch u (W.inch.length - 1) 1 (some (W.inch.getD (1 - 1) 0)) := by
      obtain ⟨n, hn⟩ : ∃ n, W.inch.length = n + 1 := ⟨W.inch.length - 1, by omega⟩
      have := (hall 0 hp).le
      rw [hn]
      simp only [gaugeScan, idx_ok (0 : ℚ) hp, Py.ok_bind, if_pos this, ge_iff_le, Nat.add_sub_cancel, Nat.sub_self, zero_add]
    obtain ⟨k, a1, a2, a3, a4, a5⟩ := gaugeScan_spec W.inch u (W.inch.length - 1) 1 (by omega) (by omega) (by
      intro j hj; exact (hall j (by omega)).le)
    have hk : k = W.inch.length := by
      by_contra hc
      exact absurd (a4 (by omega)) (not_lt.mpr (hall k (by omega)).le)
    rw [first, a5, Py.ok_bind]
    subst hk
    dsimp only
    rw [if_pos rfl]; rfl
  · have hd : wire_schedules.all (fun p => decide (p.2.inch.getD (p.2.inch.length - 1) 0 ∉ p.2.gauges)) = true := by decide +kernel
    exact of_decide_eq_true (List.all_eq_true.mp hd _ (lookup_mem hW))

example : gauge_from_t (5/10) false "BWG" = .ok (1/5) ∧ gauge_from_t (285/1000) false "BWG" = .ok 2 ∧ t_from_gauge 2 true "BWG" = .ok (7214/1000000) := by
  decide +kernel
example : gauge_from_t (1/1000) false "BWG" = .ok (4/1000) := by decide +kernel

end Verif.Piping
