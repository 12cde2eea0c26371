import Verif.Model.Psd
import Verif.Props.Sequences
import Verif.Lemmas.Tactic
import Mathlib.Analysis.SpecialFunctions.Log.Base

/-! C69: `psd_spacing`; C87: the sieve tables. -/

open Real

noncomputable section

namespace Verif.Psd

/-! ### C87: sieve tables -/

/-- value of a decimal digit -/
def digit (c : Char) : Option ℕ := if '0' ≤ c ∧ c ≤ '9' then some (c.toNat - 48) else none

/-- value of a string of digits -/
def parseNat : List Char → ℕ → Option ℕ
  | [], acc => some acc
  | c :: l, acc => match digit c with
    | none => none
    | some d => parseNat l (10 * acc + d)

/-- value of a decimal numeral such as "0.125" -/
def parseDecimal (s : String) : Option ℚ :=
  let i := s.toList.takeWhile (· ≠ '.')
  let f := (s.toList.dropWhile (· ≠ '.')).drop 1
  match parseNat i 0, parseNat f 0 with
  | some a, some b => some (a + b / 10 ^ f.length)
  | _, _ => none

/-- C87: every sieve of both standards is stored under its designation, and its opening in metres is a thousandth of the designation, which is
in millimetres -/
theorem C87_opening (r : SieveRow) (h : r ∈ ASTM_E11_sieves ∨ r ∈ ISO_3310_1_sieves) :
    r.key = r.designation ∧ parseDecimal r.designation = some (1000 * r.opening) ∧ 0 < r.opening := by
  have h1 : ∀ r ∈ ASTM_E11_sieves, r.key = r.designation ∧ parseDecimal r.designation = some (1000 * r.opening) ∧ 0 < r.opening := by decide +kernel
  have h2 : ∀ r ∈ ISO_3310_1_sieves, r.key = r.designation ∧ parseDecimal r.designation = some (1000 * r.opening) ∧ 0 < r.opening := by decide +kernel
  rcases h with h | h
  · exact h1 r h
  · exact h2 r h

/-- C87: no two sieves of a standard share a designation -/
theorem C87_distinct : (ASTM_E11_sieves.map (·.key)).Nodup ∧ (ISO_3310_1_sieves.map (·.key)).Nodup := by
  constructor <;> decide +kernel

/-- C87: every ASTM wire diameter lies within its tolerance -/
theorem C87_ASTM_wire_range (r : SieveRow) (h : r ∈ ASTM_E11_sieves) : r.d_wire_min ≤ r.d_wire ∧ r.d_wire ≤ r.d_wire_max ∧ 0 < r.d_wire_min := by
  have h1 : ∀ r ∈ ASTM_E11_sieves, r.d_wire_min ≤ r.d_wire ∧ r.d_wire ≤ r.d_wire_max ∧ 0 < r.d_wire_min := by decide +kernel
  exact h1 r h

/-- C87 (finding): the wires of the ASTM sieves finer than 1 mm are given a thousand times too thin: thinner than an eight-hundredth of the
opening, where every coarser sieve has wires thicker than a twentieth of it -/
theorem C87_ASTM_fine_wires (r : SieveRow) (h : r ∈ ASTM_E11_sieves) :
    (r.opening < 1 / 1000 → r.d_wire_max < r.opening / 800) ∧ (1 / 1000 ≤ r.opening → r.opening / 20 < r.d_wire_min) := by
  have h1 : ∀ r ∈ ASTM_E11_sieves, (r.opening < 1 / 1000 → r.d_wire_max < r.opening / 800) ∧
      (1 / 1000 ≤ r.opening → r.opening / 20 < r.d_wire_min) := by decide +kernel
  exact h1 r h

/-- C87: the ISO wire diameters lie within their tolerances from 0.071 mm on; (finding) for some finer sieves they do not -/
theorem C87_ISO_wire_range : (∀ r ∈ ISO_3310_1_sieves, 71 / 1000000 ≤ r.opening → r.d_wire_min ≤ r.d_wire ∧ r.d_wire ≤ r.d_wire_max) ∧
    ∃ r ∈ ISO_3310_1_sieves, r.key = "0.045" ∧ ¬ (r.d_wire_min ≤ r.d_wire ∧ r.d_wire ≤ r.d_wire_max) := by
  constructor <;> decide +kernel

/-- the named sieve series: the method name, the sieve table and the designations of the series -/
def standards : List (String × List SieveRow × List String) := [
  ("ISO 3310-1", ISO_3310_1_sieves, ISO_3310_1_sieve_designations),
  ("ISO 3310-1 R20", ISO_3310_1_sieves, ISO_3310_1_R20_keys),
  ("ISO 3310-1 R20/3", ISO_3310_1_sieves, ISO_3310_1_R20_3_keys),
  ("ISO 3310-1 R40/3", ISO_3310_1_sieves, ISO_3310_1_R40_3_keys),
  ("ISO 3310-1 R10", ISO_3310_1_sieves, ISO_3310_1_R10_keys),
  ("ASTM E11", ASTM_E11_sieves, ASTM_E11_sieve_designations)]

/-- whether the list of openings looked up is strictly descending and consists of the openings of the rows named by the keys -/
def seriesCheck (rows : List SieveRow) (keys : List String) : Bool :=
  match keys.mapM (lookupOpening rows) with
  | .error _ => false
  | .ok L => decide (L.Pairwise (· > ·)) && L.all (fun x => rows.any fun r => decide (r.key ∈ keys) && decide (x = r.opening)) &&
      rows.all fun r => !(decide (r.key ∈ keys)) || decide (r.opening ∈ L)

theorem series_ok {rows : List SieveRow} {keys : List String} (h : seriesCheck rows keys = true) :
    ∃ L, keys.mapM (lookupOpening rows) = .ok L ∧ L.Pairwise (· > ·) ∧ ∀ x, x ∈ L ↔ ∃ r ∈ rows, r.key ∈ keys ∧ x = r.opening := by
  unfold seriesCheck at h
  cases hm : keys.mapM (lookupOpening rows) with
  | error e => rw [hm] at h; simp at h
  | ok L =>
    rw [hm] at h
    simp only [Bool.and_eq_true, decide_eq_true_eq, List.all_eq_true, List.any_eq_true, Bool.or_eq_true, Bool.not_eq_true', decide_eq_false_iff_not] at h
    refine ⟨L, rfl, h.1.1, fun x => ⟨fun hx => ?_, ?_⟩⟩
    · obtain ⟨r, hr, hk, he⟩ := h.1.2 x hx
      exact ⟨r, hr, hk, he⟩
    · rintro ⟨r, hr, hk, rfl⟩
      exact (h.2 r hr).resolve_left fun hn => hn hk

theorem series_all : ∀ p ∈ standards, seriesCheck p.2.1 p.2.2 = true := by decide +kernel

/-- C87: the two full lists name every sieve of their table, and every series names only sieves of its table -/
theorem C87_series : (∀ r ∈ ISO_3310_1_sieves, r.key ∈ ISO_3310_1_sieve_designations) ∧ (∀ r ∈ ASTM_E11_sieves, r.key ∈ ASTM_E11_sieve_designations) ∧
    ∀ p ∈ standards, ∀ k ∈ p.2.2, ∃ r ∈ p.2.1, r.key = k := by
  refine ⟨by decide +kernel, by decide +kernel, by decide +kernel⟩

/-! ### C69: spacing -/

theorem foldl_filter (L : List ℚ) (a b : ℝ) (acc : List ℝ) :
    L.foldl (fun (ds : List ℝ) (o : ℚ) => if a ≤ (o : ℝ) ∧ (o : ℝ) ≤ b then ds ++ [(o : ℝ)] else ds) acc =
      acc ++ (L.map fun o : ℚ => (o : ℝ)).filter fun x => a ≤ x ∧ x ≤ b := by
  induction L generalizing acc with
  | nil => simp
  | cons o L ih =>
    rw [List.foldl_cons, ih, List.map_cons]
    by_cases h : a ≤ (o : ℝ) ∧ (o : ℝ) ≤ b
    · rw [if_pos h, List.filter_cons_of_pos (by simpa using h)]; simp
    · rw [if_neg h, List.filter_cons_of_neg (by simpa using h)]

theorem sieves_eval {L : List ℚ} (hL : L.Pairwise (· > ·)) (a b : ℝ) :
    ∃ ds, sieves (.ok L) (some a) (some b) = .ok ds ∧ ds.Pairwise (· < ·) ∧ ∀ x, x ∈ ds ↔ a ≤ x ∧ x ≤ b ∧ ∃ o ∈ L, x = (o : ℝ) := by
  refine ⟨((L.map fun o : ℚ => (o : ℝ)).filter fun x => a ≤ x ∧ x ≤ b).reverse, ?_, ?_, fun x => ?_⟩
  · simp only [sieves, Py.ok_bind, foldl_filter, List.nil_append]; rfl
  · rw [List.pairwise_reverse]
    refine List.Pairwise.filter _ ?_
    rw [List.pairwise_map]
    exact hL.imp fun {x y} h => by exact_mod_cast h
  · simp only [List.mem_reverse, List.mem_filter, List.mem_map, decide_eq_true_eq]
    constructor
    · rintro ⟨⟨o, ho, rfl⟩, h1, h2⟩; exact ⟨h1, h2, o, ho, rfl⟩
    · rintro ⟨h1, h2, o, ho, rfl⟩; exact ⟨⟨o, ho, rfl⟩, h1, h2⟩

/-- how `psd_spacing` reaches a sieve series -/
theorem spacing_standard (parse : String → Py ℝ) (lo hi : Option ℝ) (pts : ℤ) {p : String × List SieveRow × List String} (hp : p ∈ standards) :
    psd_spacing parse lo hi pts p.1 = sieves (p.2.2.mapM (lookupOpening p.2.1)) lo hi := by
  have key : ∀ (m : String) (c : Char) (rest : List Char) (t : Py (List ℚ)), m ≠ "logarithmic" → m ≠ "linear" → m.toList = c :: rest →
      ¬ (c = 'R' ∨ c = 'r') → sieveOption m = some t → psd_spacing parse lo hi pts m = sieves t lo hi := by
    intro m c rest t h1 h2 h3 h4 h5
    unfold psd_spacing
    rw [if_neg h1, if_neg h2, h3]; dsimp only
    rw [if_neg h4, h5]
  have hI : ¬ ('I' = 'R' ∨ 'I' = 'r') := by decide
  have hA : ¬ ('A' = 'R' ∨ 'A' = 'r') := by decide
  simp only [standards, List.mem_cons, List.not_mem_nil, or_false] at hp
  rcases hp with rfl | rfl | rfl | rfl | rfl | rfl
  · refine key _ 'I' "SO 3310-1".toList _ (by decide) (by decide) (by decide) hI ?_
    unfold sieveOption; rw [if_pos rfl]
  · refine key _ 'I' "SO 3310-1 R20".toList _ (by decide) (by decide) (by decide) hI ?_
    unfold sieveOption; rw [if_neg (by decide), if_pos rfl]
  · refine key _ 'I' "SO 3310-1 R20/3".toList _ (by decide) (by decide) (by decide) hI ?_
    unfold sieveOption; rw [if_neg (by decide), if_neg (by decide), if_pos rfl]
  · refine key _ 'I' "SO 3310-1 R40/3".toList _ (by decide) (by decide) (by decide) hI ?_
    unfold sieveOption; rw [if_neg (by decide), if_neg (by decide), if_neg (by decide), if_pos rfl]
  · refine key _ 'I' "SO 3310-1 R10".toList _ (by decide) (by decide) (by decide) hI ?_
    unfold sieveOption; rw [if_neg (by decide), if_neg (by decide), if_neg (by decide), if_neg (by decide), if_pos rfl]
  · refine key _ 'A' "STM E11".toList _ (by decide) (by decide) (by decide) hA ?_
    unfold sieveOption; rw [if_neg (by decide), if_neg (by decide), if_neg (by decide), if_neg (by decide), if_neg (by decide), if_pos rfl]

/-- C69: sieve spacings are, in strictly ascending order, exactly the openings of the series that lie between the two bounds, however many
points were asked for; without both bounds it is a ValueError -/
theorem C69_sieves (parse : String → Py ℝ) (pts : ℤ) {p : String × List SieveRow × List String} (hp : p ∈ standards) :
    (∀ lo hi : ℝ, ∃ ds, psd_spacing parse (some lo) (some hi) pts p.1 = .ok ds ∧ ds.Pairwise (· < ·) ∧
      ∀ x : ℝ, x ∈ ds ↔ lo ≤ x ∧ x ≤ hi ∧ ∃ r ∈ p.2.1, r.key ∈ p.2.2 ∧ x = (r.opening : ℝ)) ∧
    ∀ lo hi : Option ℝ, lo = none ∨ hi = none → psd_spacing parse lo hi pts p.1 = .error .valueError := by
  constructor
  · intro lo hi
    obtain ⟨L, h1, h2, h3⟩ := series_ok (series_all p hp)
    obtain ⟨ds, e1, e2, e3⟩ := sieves_eval h2 lo hi
    refine ⟨ds, by rw [spacing_standard parse _ _ pts hp, h1, e1], e2, fun x => ?_⟩
    rw [e3]
    constructor
    · rintro ⟨a1, a2, o, ho, rfl⟩
      obtain ⟨r, hr, hk, rfl⟩ := (h3 o).mp ho
      exact ⟨a1, a2, r, hr, hk, rfl⟩
    · rintro ⟨a1, a2, r, hr, hk, rfl⟩
      exact ⟨a1, a2, r.opening, (h3 _).mpr ⟨r, hr, hk, rfl⟩, rfl⟩
  · intro lo hi h
    rw [spacing_standard parse _ _ pts hp]
    rcases h with rfl | rfl
    · cases hi <;> rfl
    · cases lo <;> rfl

/-- C69: the logarithmic spacing has the number of points asked for, in geometric progression from `d_min` to `d_max`; a missing bound or one
that is not positive is a ValueError -/
theorem C69_logarithmic (parse : String → Py ℝ) {lo hi : ℝ} (h0 : 0 < lo) (h1 : lo < hi) {pts : ℕ} (hn : 2 ≤ pts) :
    ∃ ds, psd_spacing parse (some lo) (some hi) pts "logarithmic" = .ok ds ∧ ds.length = pts ∧
      (∀ i < pts, ds.getD i 0 = lo * (hi / lo) ^ ((i : ℝ) / ((pts : ℝ) - 1))) ∧ ds.getD 0 0 = lo ∧ ds.getD (pts - 1) 0 = hi ∧
      (∀ i, i + 1 < pts → ds.getD i 0 < ds.getD (i + 1) 0) ∧ ∀ i < pts, lo ≤ ds.getD i 0 ∧ ds.getD i 0 ≤ hi := by
  have hh : 0 < hi := h0.trans h1
  have hp1 : (0 : ℝ) < (pts : ℝ) - 1 := by
    have : (2 : ℝ) ≤ pts := by exact_mod_cast hn
    linarith
  obtain ⟨l, e1, e2, e3⟩ := C20_logspace (logb 10 lo) (logb 10 hi) 10 (by norm_num) pts hn
  have hl : log 10 ≠ 0 := (log_pos (by norm_num)).ne'
  have hev : ∀ i < pts, l.getD i 0 = lo * (hi / lo) ^ ((i : ℝ) / ((pts : ℝ) - 1)) := fun i hi' => by
    rw [e3 i hi', rpow_add (by norm_num), rpow_logb (by norm_num) (by norm_num) h0]
    congr 1
    rw [show (i : ℝ) * ((logb 10 hi - logb 10 lo) / ((pts : ℝ) - 1)) = (logb 10 hi - logb 10 lo) * (i / ((pts : ℝ) - 1)) by ring,
      rpow_mul (by norm_num), rpow_sub (by norm_num), rpow_logb (by norm_num) (by norm_num) h0, rpow_logb (by norm_num) (by norm_num) hh]
  have hr : 1 < hi / lo := by rwa [lt_div_iff₀ h0, one_mul]
  have hlast : ((pts - 1 : ℕ) : ℝ) / ((pts : ℝ) - 1) = 1 := by
    rw [Nat.cast_sub (by omega), Nat.cast_one, div_self hp1.ne']
  refine ⟨l, ?_, e2, hev, ?_, ?_, fun i hi' => ?_, fun i hi' => ?_⟩
  · simp only [psd_spacing, if_true, plog10_ok h0, plog10_ok hh, Py.ok_bind]
    exact e1
  · rw [hev 0 (by omega)]; simp
  · rw [hev _ (by omega), hlast, rpow_one]; field_simp
  · rw [hev i (by omega), hev (i + 1) hi']
    have : (i : ℝ) / ((pts : ℝ) - 1) < ((i + 1 : ℕ) : ℝ) / ((pts : ℝ) - 1) := by gcongr; simp
    have := rpow_lt_rpow_of_exponent_lt hr this
    gcongr
  · rw [hev i hi']
    have hle : (i : ℝ) / ((pts : ℝ) - 1) ≤ 1 := by
      rw [div_le_one hp1]
      have : ((i + 1 : ℕ) : ℝ) ≤ pts := by exact_mod_cast hi'
      push_cast at this; linarith
    have hge : 0 ≤ (i : ℝ) / ((pts : ℝ) - 1) := by positivity
    have a1 : 1 ≤ (hi / lo) ^ ((i : ℝ) / ((pts : ℝ) - 1)) := one_le_rpow hr.le hge
    have a2 := rpow_le_rpow_of_exponent_le hr.le hle
    rw [rpow_one] at a2
    refine ⟨by nlinarith, ?_⟩
    calc lo * (hi / lo) ^ ((i : ℝ) / ((pts : ℝ) - 1)) ≤ lo * (hi / lo) := by gcongr
      _ = hi := by field_simp

/-- C69: errors of the logarithmic spacing -/
theorem C69_logarithmic_errors (parse : String → Py ℝ) (lo hi : Option ℝ) (pts : ℤ) (h : ∀ a b, lo = some a → hi = some b → a ≤ 0 ∨ b ≤ 0) :
    psd_spacing parse lo hi pts "logarithmic" = .error .valueError := by
  have key : ∀ x : ℝ, x ≤ 0 → plog10 x = .error .valueError := fun x hx => by unfold plog10; rw [if_pos hx]
  cases lo with
  | none => cases hi <;> rfl
  | some a =>
    cases hi with
    | none => rfl
    | some b =>
      simp only [psd_spacing, if_true]
      rcases le_or_gt a 0 with ha | ha
      · rw [key a ha]; rfl
      · rw [plog10_ok ha]; simp only [Py.ok_bind]
        rw [key b ((h a b rfl rfl).resolve_left (not_le.mpr ha))]; rfl

/-- C69: the linear spacing has the number of points asked for, in arithmetic progression from `d_min` to `d_max`; a missing bound is a TypeError -/
theorem C69_linear (parse : String → Py ℝ) {lo hi : ℝ} (h1 : lo < hi) {pts : ℕ} (hn : 2 ≤ pts) :
    (∃ ds, psd_spacing parse (some lo) (some hi) pts "linear" = .ok ds ∧ ds.length = pts ∧
      (∀ i < pts, ds.getD i 0 = lo + i * ((hi - lo) / ((pts : ℝ) - 1))) ∧ ds.head? = some lo ∧ ds.getLast? = some hi ∧
      (∀ i, i + 1 < pts → ds.getD i 0 < ds.getD (i + 1) 0) ∧ ∀ i < pts, lo ≤ ds.getD i 0 ∧ ds.getD i 0 ≤ hi) ∧
    ∀ (a b : Option ℝ) (n : ℤ), a = none ∨ b = none → psd_spacing parse a b n "linear" = .error .typeError := by
  have hp1 : (0 : ℝ) < (pts : ℝ) - 1 := by
    have : (2 : ℝ) ≤ pts := by exact_mod_cast hn
    linarith
  have hst : 0 < (hi - lo) / ((pts : ℝ) - 1) := div_pos (by linarith) hp1
  obtain ⟨e1, e2, e3, e4⟩ := C20_linspace lo hi pts hn
  refine ⟨⟨_, by simp only [psd_spacing, String.reduceEq, if_false, if_true], e1, e2, e3, e4, fun i h => ?_, fun i h => ?_⟩, ?_⟩
  · rw [e2 i (by omega), e2 (i + 1) h]; push_cast; nlinarith
  · rw [e2 i h]
    have : ((i + 1 : ℕ) : ℝ) ≤ pts := by exact_mod_cast h
    push_cast at this
    have hi0 : (0 : ℝ) ≤ i := by positivity
    refine ⟨by nlinarith, ?_⟩
    have : (i : ℝ) * ((hi - lo) / ((pts : ℝ) - 1)) ≤ ((pts : ℝ) - 1) * ((hi - lo) / ((pts : ℝ) - 1)) := by gcongr; linarith
    rw [mul_div_cancel₀ _ hp1.ne'] at this; linarith
  · rintro a b n (rfl | rfl)
    · cases b <;> simp only [psd_spacing, String.reduceEq, if_false, if_true]
    · cases a <;> simp only [psd_spacing, String.reduceEq, if_false, if_true]

theorem appendGeo_eval {step : ℝ → Py ℝ} {c : ℝ} (h : ∀ d, step d = .ok (d * c)) (n k : ℕ) (d : ℝ) :
    appendGeo step n ((List.range (k + 1)).map fun i => d * c ^ i) = .ok ((List.range (k + 1 + n)).map fun i => d * c ^ i) := by
  induction n generalizing k with
  | zero => rfl
  | succ n ih =>
    have e : ((List.range (k + 1)).map fun i => d * c ^ i).getLastD 0 = d * c ^ k := by
      rw [List.range_succ, List.map_append]; simp
    have e2 : ((List.range (k + 1)).map fun i => d * c ^ i) ++ [d * c ^ k * c] = (List.range (k + 1 + 1)).map fun i => d * c ^ i := by
      rw [List.range_succ (n := k + 1), List.map_append]; simp [pow_succ, mul_assoc]
    rw [appendGeo, h, e]; simp only [Py.ok_bind]
    rw [e2, ih (k + 1)]
    congr 2; congr 1; omega

/-- C69: a Renard series `R10`, `r20`, … upwards from `d_min`: every size is the previous one times the `r`-th root of ten -/
theorem C69_Renard_up {parse : String → Py ℝ} {method : String} {c : Char} {rest : List Char} {r lo : ℝ} (hm : method.toList = c :: rest)
    (hc : c = 'R' ∨ c = 'r') (hr : parse (String.ofList rest) = .ok r) (hr0 : 0 < r) (hlo : 0 < lo) {pts : ℕ} (hn : 1 ≤ pts) :
    ∃ ds, psd_spacing parse (some lo) none pts method = .ok ds ∧ ds.length = pts ∧ (∀ i < pts, ds.getD i 0 = lo * ((10 : ℝ) ^ (1 / r)) ^ i) ∧
      ∀ i, i + 1 < pts → ds.getD i 0 < ds.getD (i + 1) 0 := by
  have h1 : method ≠ "logarithmic" := by rintro rfl; revert hm; rcases hc with rfl | rfl <;> intro hm <;> simp at hm
  have h2 : method ≠ "linear" := by rintro rfl; revert hm; rcases hc with rfl | rfl <;> intro hm <;> simp at hm
  have hratio : 1 < (10 : ℝ) ^ (1 / r) := one_lt_rpow (by norm_num) (by positivity)
  have hev := appendGeo_eval (step := fun d => .ok (d * (10 : ℝ) ^ (1 / r))) (c := (10 : ℝ) ^ (1 / r)) (fun d => rfl) (pts - 1) 0 lo
  have e : 0 + 1 + (pts - 1) = pts := by omega
  rw [e] at hev
  have hg : ∀ i < pts, ((List.range pts).map fun i => lo * ((10 : ℝ) ^ (1 / r)) ^ i).getD i 0 = lo * ((10 : ℝ) ^ (1 / r)) ^ i := fun i hi => by
    rw [List.getD_eq_getElem _ _ (by simpa using hi)]; simp
  refine ⟨_, ?_, by simp, hg, fun i hi => ?_⟩
  · simp only [psd_spacing, if_neg h1, if_neg h2, hm, hc, if_true, hr, Py.ok_bind, renard, pdiv_ok hr0.ne', ppow_ok (by norm_num : (0 : ℝ) < 10)]
    have : ((pts : ℤ) - 1).toNat = pts - 1 := by omega
    rw [this, ← hev]; simp
  · rw [hg i (by omega), hg (i + 1) hi, pow_succ]
    have : 0 < lo * ((10 : ℝ) ^ (1 / r)) ^ i := by positivity
    nlinarith

/-- C69: a Renard series downwards from `d_max`, returned in ascending order -/
theorem C69_Renard_down {parse : String → Py ℝ} {method : String} {c : Char} {rest : List Char} {r hi : ℝ} (hm : method.toList = c :: rest)
    (hc : c = 'R' ∨ c = 'r') (hr : parse (String.ofList rest) = .ok r) (hr0 : 0 < r) (hhi : 0 < hi) {pts : ℕ} (hn : 1 ≤ pts) :
    ∃ ds, psd_spacing parse none (some hi) pts method = .ok ds ∧ ds.length = pts ∧ (∀ i < pts, ds.getD i 0 = hi / ((10 : ℝ) ^ (1 / r)) ^ (pts - 1 - i)) ∧
      ∀ i, i + 1 < pts → ds.getD i 0 < ds.getD (i + 1) 0 := by
  have h1 : method ≠ "logarithmic" := by rintro rfl; revert hm; rcases hc with rfl | rfl <;> intro hm <;> simp at hm
  have h2 : method ≠ "linear" := by rintro rfl; revert hm; rcases hc with rfl | rfl <;> intro hm <;> simp at hm
  have hratio : 1 < (10 : ℝ) ^ (1 / r) := one_lt_rpow (by norm_num) (by positivity)
  have hr' : 0 < (10 : ℝ) ^ (1 / r) := by positivity
  have hev := appendGeo_eval (step := fun d => d /ₚ (10 : ℝ) ^ (1 / r)) (c := ((10 : ℝ) ^ (1 / r))⁻¹) (fun d => by rw [pdiv_ok hr'.ne', div_eq_mul_inv]) (pts - 1) 0 hi
  have e : 0 + 1 + (pts - 1) = pts := by omega
  rw [e] at hev
  have hg : ∀ i < pts, ((List.range pts).map fun i => hi * (((10 : ℝ) ^ (1 / r))⁻¹) ^ i).reverse.getD i 0 = hi / ((10 : ℝ) ^ (1 / r)) ^ (pts - 1 - i) := fun i hi' => by
    rw [List.getD_eq_getElem _ _ (by simpa using hi'), List.getElem_reverse]
    simp only [List.length_map, List.length_range, List.getElem_map, List.getElem_range, inv_pow]
    exact (div_eq_mul_inv _ _).symm
  refine ⟨_, ?_, ?_, hg, fun i hi' => ?_⟩
  · simp only [psd_spacing, if_neg h1, if_neg h2, hm, hc, if_true, hr, Py.ok_bind, renard, pdiv_ok hr0.ne', ppow_ok (by norm_num : (0 : ℝ) < 10)]
    have : ((pts : ℤ) - 1).toNat = pts - 1 := by omega
    have h3 : [hi] = (List.range (0 + 1)).map fun i => hi * (((10 : ℝ) ^ (1 / r))⁻¹) ^ i := by simp
    rw [this, h3, hev]; rfl
  · simp
  · rw [hg i (by omega), hg (i + 1) hi', show pts - 1 - i = (pts - 1 - (i + 1)) + 1 by omega, pow_succ]
    have h4 : 0 < ((10 : ℝ) ^ (1 / r)) ^ (pts - 1 - (i + 1)) := by positivity
    rw [div_lt_div_iff₀ (by positivity) h4]
    have : 0 < hi * ((10 : ℝ) ^ (1 / r)) ^ (pts - 1 - (i + 1)) := by positivity
    nlinarith

/-- C69: a Renard series needs exactly one bound -/
theorem C69_Renard_errors {parse : String → Py ℝ} {method : String} {c : Char} {rest : List Char} {r : ℝ} (hm : method.toList = c :: rest)
    (hc : c = 'R' ∨ c = 'r') (hr : parse (String.ofList rest) = .ok r) (pts : ℤ) :
    (r ≠ 0 → (∀ a b, psd_spacing parse (some a) (some b) pts method = .error .valueError) ∧ psd_spacing parse none none pts method = .error .valueError) ∧
    (r = 0 → ∀ lo hi, psd_spacing parse lo hi pts method = .error .zeroDivisionError) := by
  have h1 : method ≠ "logarithmic" := by rintro rfl; revert hm; rcases hc with rfl | rfl <;> intro hm <;> simp at hm
  have h2 : method ≠ "linear" := by rintro rfl; revert hm; rcases hc with rfl | rfl <;> intro hm <;> simp at hm
  refine ⟨fun h0 => ⟨fun a b => ?_, ?_⟩, fun h0 lo hi => ?_⟩
  · simp only [psd_spacing, if_neg h1, if_neg h2, hm, hc, if_true, hr, Py.ok_bind, renard, pdiv_ok h0, ppow_ok (by norm_num : (0 : ℝ) < 10)]
  · simp only [psd_spacing, if_neg h1, if_neg h2, hm, hc, if_true, hr, Py.ok_bind, renard, pdiv_ok h0, ppow_ok (by norm_num : (0 : ℝ) < 10)]
  · subst h0
    simp only [psd_spacing, if_neg h1, if_neg h2, hm, hc, if_true, hr, Py.ok_bind, renard, pdiv_zero, Py.error_bind]

/-- C69: any other name is a ValueError -/
theorem C69_unknown (parse : String → Py ℝ) {method : String} {c : Char} {rest : List Char} (hm : method.toList = c :: rest) (hc : ¬ (c = 'R' ∨ c = 'r'))
    (h1 : method ≠ "logarithmic") (h2 : method ≠ "linear") (h3 : ∀ p ∈ standards, p.1 ≠ method) (lo hi : Option ℝ) (pts : ℤ) :
    psd_spacing parse lo hi pts method = .error .valueError := by
  simp only [standards, List.forall_mem_cons, List.not_mem_nil, false_imp_iff, implies_true, and_true] at h3
  obtain ⟨a1, a2, a3, a4, a5, a6⟩ := h3
  simp only [psd_spacing, if_neg h1, if_neg h2, hm, if_neg hc, sieveOption, if_neg a1.symm, if_neg a2.symm, if_neg a3.symm, if_neg a4.symm,
    if_neg a5.symm, if_neg a6.symm]

example : ∃ ds, psd_spacing (fun _ => .error .valueError) (some 5e-5) (some 5e-4) 20 "ISO 3310-1 R20/3" = .ok ds ∧ (6.3e-5 : ℝ) ∈ ds := by
  obtain ⟨ds, h1, -, h3⟩ := (C69_sieves (fun _ => .error .valueError) 20 (p := ("ISO 3310-1 R20/3", ISO_3310_1_sieves, ISO_3310_1_R20_3_keys))
    (by simp [standards])).1 5e-5 5e-4
  refine ⟨ds, h1, (h3 _).mpr ⟨by norm_num, by norm_num, ?_⟩⟩
  have : ∃ r ∈ ISO_3310_1_sieves, r.key ∈ ISO_3310_1_R20_3_keys ∧ r.opening = 63 / 1000000 := by decide +kernel
  obtain ⟨r, hr, hk, ho⟩ := this
  exact ⟨r, hr, hk, by rw [ho]; norm_num⟩

end Verif.Psd
