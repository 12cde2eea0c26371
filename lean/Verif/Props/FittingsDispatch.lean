import Verif.Props.FittingsValves
import Verif.Props.FittingsCones
import Verif.Props.Interp

/-! # C50: fitting dispatchers

Acceptance is stated for the geometric ranges of each fitting; `Turb` is the range of the friction factor correlation used when only a
Reynolds number is given (`2040 ≤ Re`, `0 ≤ ε/D ≤ 0.05`). -/

namespace Verif.Fittings
open Real
open Verif.Friction
open Verif.Seq (interp)

variable {X : Charts} {W : ℝ → ℝ} {Di rc angle Di1 Di2 D : ℝ}

/-! the documented method lists (fittings.py:266, 399, 566, 660, 792, 1396, 1623, 1882, 2011, 2240, 2539, 2746) -/
def entrance_sharp_methods : List String := ["Rennels", "Swamee", "Blevins", "Idelchik", "Crane", "Miller"]
def entrance_distance_methods : List String := ["Rennels", "Miller", "Idelchik", "Harris", "Crane"]
def entrance_rounded_methods : List String := ["Rennels", "Crane", "Miller", "Idelchik", "Harris", "Swamee"]
def entrance_beveled_methods : List String := ["Rennels", "Idelchik"]
def bend_rounded_methods : List String := ["Rennels", "Crane", "Crane standard", "Miller", "Swamee", "Ito"]
def bend_miter_methods : List String := ["Rennels", "Miller", "Crane", "Blevins"]
def contraction_sharp_methods : List String := ["Rennels", "Hooper", "Crane"]
def contraction_round_methods : List String := ["Rennels", "Miller", "Idelchik"]
def contraction_conical_methods : List String := ["Rennels", "Idelchik", "Crane", "Swamee", "Blevins", "Miller", "Hooper"]
def diffuser_sharp_methods : List String := ["Rennels", "Hooper"]
def diffuser_conical_methods : List String := ["Rennels", "Crane", "Miller", "Swamee", "Idelchik", "Hooper"]

/-- any table with increasing abscissae can be interpolated anywhere -/
theorem interp_total (x : ℝ) {dx dy : List ℝ} (hs : dx.Pairwise (· < ·)) (hl : dx.length = dy.length) (hn : 2 ≤ dx.length) (l r : Option ℝ)
    (ex : Bool) : ∃ y, interp x dx dy l r ex = .ok y := by
  by_cases h0 : x < dx.getD 0 0
  · exact ⟨_, (C21_interp_outside x dx dy hs hl hn l r ex).1 h0⟩
  by_cases h1 : dx.getD (dx.length - 1) 0 < x
  · exact ⟨_, (C21_interp_outside x dx dy hs hl hn l r ex).2 h1⟩
  have key : ∀ n, n < dx.length → x ≤ dx.getD n 0 → ∃ i, i + 1 < dx.length ∧ dx.getD i 0 ≤ x ∧ x ≤ dx.getD (i + 1) 0 := by
    intro n
    induction n with
    | zero =>
      intro _ hx
      refine ⟨0, by omega, not_lt.mp h0, hx.trans (incr_getD hs (by omega : 0 < 1) (by omega)).le⟩
    | succ n ih =>
      intro hn' hx
      by_cases hh : x ≤ dx.getD n 0
      · exact ih (by omega) hh
      · exact ⟨n, hn', (not_le.mp hh).le, hx⟩
  obtain ⟨i, hi, ha, hb⟩ := key (dx.length - 1) (by omega) (not_lt.mp h1)
  exact ⟨_, C21_interp_inside x dx dy hs hl l r ex i hi ha hb⟩

/-! ### entrances -/

/-- C50: `entrance_sharp` and `entrance_angled`. -/
theorem C50_entrance_sharp (m : String) (a : ℝ) :
    (m ∈ entrance_sharp_methods → ∃ K, entrance_sharp (some m) = .ok K) ∧ (m ∉ entrance_sharp_methods → entrance_sharp (some m) = .error .valueError) ∧
    entrance_sharp none = entrance_sharp (some "Rennels") ∧
    (∃ K, entrance_angled a (some "Idelchik") = .ok K ∧ entrance_angled a none = .ok K) ∧
    (m ≠ "Idelchik" → entrance_angled a (some m) = .error .valueError) := by
  refine ⟨?_, fun h => ?_, rfl, ?_, fun h => ?_⟩
  · revert m
    simp only [entrance_sharp_methods, List.forall_mem_cons, List.not_mem_nil, false_implies, implies_true, and_true]
    simp [entrance_sharp]
  · simp only [entrance_sharp_methods, List.mem_cons, List.not_mem_nil, or_false, not_or] at h
    simp [entrance_sharp, h]
  · simp [entrance_angled]
  · simp [entrance_angled, h]

/-- C50: `entrance_distance`: every listed method works with a wall thickness; only Crane's does without; others are rejected. -/
theorem C50_entrance_distance (m : String) (l : Option ℝ) (hD : 0 < Di) (t : ℝ) :
    (m ∈ entrance_distance_methods → ∃ K, entrance_distance X Di (some t) l (some m) = .ok K) ∧
    (m ∈ entrance_distance_methods → m ≠ "Crane" → entrance_distance X Di none l (some m) = .error .valueError) ∧
    (∃ K, entrance_distance X Di none l (some "Crane") = .ok K) ∧
    (m ∉ entrance_distance_methods → ∀ t, entrance_distance X Di t l (some m) = .error .valueError) ∧
    (∀ t, entrance_distance X Di t l none = entrance_distance X Di t l (some "Rennels")) := by
  refine ⟨?_, ?_, ?_, fun h t => ?_, fun _ => rfl⟩
  · revert m
    simp only [entrance_distance_methods, List.forall_mem_cons, List.not_mem_nil, false_implies, implies_true, and_true]
    simp [entrance_distance, pdiv_ok hD.ne']
  · revert m
    simp only [entrance_distance_methods, List.forall_mem_cons, List.not_mem_nil, false_implies, implies_true, and_true]
    simp [entrance_distance]
  · simp [entrance_distance]
  · simp only [entrance_distance_methods, List.mem_cons, List.not_mem_nil, or_false, not_or] at h
    simp [entrance_distance, h]

/-- C50: `entrance_rounded`. -/
theorem C50_entrance_rounded (m : String) (hD : 0 < Di) (hr : 0 ≤ rc) :
    (m ∈ entrance_rounded_methods → ∃ K, entrance_rounded X Di rc (some m) = .ok K) ∧
    (m ∉ entrance_rounded_methods → entrance_rounded X Di rc (some m) = .error .valueError) ∧
    entrance_rounded X Di rc none = entrance_rounded X Di rc (some "Rennels") := by
  have hq : 0 ≤ rc / Di := by positivity
  have hp : 1 + 36 * (rc / Di) ^ (1.2 : ℝ) ≠ 0 := by positivity
  have hsw : (rc / Di) ^ₚ 1.2 = .ok ((rc / Di) ^ (1.2 : ℝ)) := ppow_ok' hq (by norm_num)
  refine ⟨?_, fun h => ?_, rfl⟩
  · revert m
    simp only [entrance_rounded_methods, List.forall_mem_cons, List.not_mem_nil, false_implies, implies_true, and_true]
    refine ⟨?_, ?_, ?_, ?_, ?_, ?_⟩ <;>
      simp only [entrance_rounded, Option.getD_some, pdiv_ok hD.ne', Py.ok_bind, String.reduceEq, if_true, if_false, psqrt_ok hq, Py.pure_eq,
        hsw, pdiv_ok hp] <;>
      (try split_ifs) <;> (try exact ⟨_, rfl⟩)
    apply interp_total (dx := entrance_rounded_ratios_Crane)
    · norm_num [entrance_rounded_ratios_Crane]
    · rfl
    · simp [entrance_rounded_ratios_Crane]
  · simp only [entrance_rounded_methods, List.mem_cons, List.not_mem_nil, or_false, not_or] at h
    simp only [entrance_rounded, Option.getD_some, pdiv_ok hD.ne', Py.ok_bind, h, if_false]

/-- C50: `entrance_beveled`. -/
theorem C50_entrance_beveled (m : String) {l : ℝ} (hD : 0 < Di) (hl : 0 < l) (ha : 0 ≤ angle) :
    (m ∈ entrance_beveled_methods → ∃ K, entrance_beveled X Di l angle (some m) = .ok K) ∧
    (m ∉ entrance_beveled_methods → entrance_beveled X Di l angle (some m) = .error .valueError) ∧
    entrance_beveled X Di l angle none = entrance_beveled X Di l angle (some "Rennels") := by
  have hq : 0 < l / Di := by positivity
  have h1 : 1 + l / Di ≠ 0 := by positivity
  have hs : 0 ≤ √(l / Di) := sqrt_nonneg _
  have hp : (angle / 90) ^ₚ (1 / (1 + l / Di)) = .ok ((angle / 90) ^ (1 / (1 + l / Di))) := ppow_ok' (by positivity) (by positivity)
  refine ⟨?_, fun h => ?_, rfl⟩
  · revert m
    simp only [entrance_beveled_methods, List.forall_mem_cons, List.not_mem_nil, false_implies, implies_true, and_true]
    refine ⟨?_, ?_⟩ <;>
      simp only [entrance_beveled, Option.getD_some, pdiv_ok hD.ne', pdiv_ok h1, hp, psqrt_ok hq.le, psqrt_ok hs, ppow_ok hq, Py.ok_bind,
        String.reduceEq, if_true, if_false, Py.pure_eq] <;> exact ⟨_, rfl⟩
  · simp only [entrance_beveled_methods, List.mem_cons, List.not_mem_nil, or_false, not_or] at h
    simp only [entrance_beveled, Option.getD_some, h, if_false]

example : (0 : ℝ) < 0.1 ∧ (0 : ℝ) ≤ 0.0235 := by norm_num

/-! ### bends -/

/-- a friction factor is available: given, or computed from a turbulent Reynolds number -/
def HasFriction (fd Re : Option ℝ) (rough D : ℝ) : Prop := (∃ f, fd = some f) ∨ ∃ R, Re = some R ∧ Turb R (rough / D)

theorem HasFriction.get {fd Re : Option ℝ} {rough D : ℝ} (h : HasFriction fd Re rough D) (hD : 0 < D) :
    ∃ f, fdOr fd Re rough D = .ok f := by
  rcases h with ⟨f, rfl⟩ | ⟨R, rfl, ht⟩
  · exact ⟨f, rfl⟩
  · cases fd with
    | some f => exact ⟨f, rfl⟩
    | none =>
      obtain ⟨f, hf⟩ := ok_Clamond ht false
      exact ⟨f, by simp only [fdOr, pdiv_ok hD.ne', Py.ok_bind, hf]⟩

/-- C50: `bend_rounded` with Rennels' method: defined with a friction factor or a Reynolds number, ValueError with neither. -/
theorem C50_bend_rounded_Rennels {fd Re r bd L : Option ℝ} {rough : ℝ} (hD : 0 < Di) (ha : 0 ≤ angle) (ha' : angle ≤ 360)
    (hr : ∀ x, r = some x → 0 < x) (hb : ∀ x, bd = some x → 0 < x) :
    (HasFriction fd Re rough Di → ∃ K, bend_rounded X W Di angle fd r bd Re rough L (some "Rennels") = .ok K) ∧
    bend_rounded X W Di angle none r bd none rough L (some "Rennels") = .error .valueError ∧
    bend_rounded X W Di angle fd r bd Re rough L none = bend_rounded X W Di angle fd r bd Re rough L (some "Rennels") := by
  have hp := pi_pos
  refine ⟨fun h => ?_, ?_, rfl⟩
  · obtain ⟨f, hf⟩ := h.get hD
    have hbd : 0 < bd.getD 5 := by
      cases bd with
      | none => norm_num
      | some b => exact hb b rfl
    obtain ⟨c, hc0, hc⟩ : ∃ c > 0, r.getD (Di * bd.getD 5) = c := by
      cases r with
      | none => exact ⟨_, mul_pos hD hbd, rfl⟩
      | some x => exact ⟨x, hr x rfl, rfl⟩
    have hs : 0 ≤ sin (0.5 * (angle * (π / 180))) := sin_nonneg_of_nonneg_of_le_pi (by positivity) (by nlinarith)
    have hq : 0 < c / Di := by positivity
    have hq2 : (c / Di) ^ (4 * (angle * (π / 180)) / π) ≠ 0 := (rpow_pos_of_pos hq _).ne'
    simp only [bend_rounded, Option.getD_some, if_true, hc]
    rw [hf]
    simp only [Py.ok_bind, pdiv_ok hD.ne', psqrt_ok hs, ppow_ok hq, pdiv_ok hq2, Py.pure_eq]
    exact ⟨_, rfl⟩
  · simp [bend_rounded, fdOr]

/-- C50: the other methods of `bend_rounded`: the Reynolds number is required by Miller and Ito and by nothing else; Ito is defined in
its own range (`Re(D_i/r_c)² > 360`), Miller's chart correlation is handed the arguments. -/
theorem C50_bend_rounded_methods {fd r bd L Re : Option ℝ} {rough R : ℝ} (hD : 1e-3 ≤ Di) (ha : 0 ≤ angle) (hr : ∀ x, r = some x → 0 < x)
    (hb : ∀ x, bd = some x → 0 < x) :
    (∃ K, bend_rounded X W Di angle fd r bd Re rough L (some "Crane standard") = .ok K) ∧
    (∃ K, bend_rounded X W Di angle fd r bd Re rough L (some "Swamee") = .ok K) ∧
    (∃ K, bend_rounded X W Di angle fd none bd Re rough L (some "Crane") = .ok K) ∧
    bend_rounded X W Di angle fd r bd (some R) rough L (some "Miller") =
      X.bendMiller Di angle R (r.getD (Di * bd.getD 5)) (bd.getD 5) rough L ∧
    (360 < R * (Di / r.getD (Di * bd.getD 5)) ^ 2 → 0 < R → ∃ K, bend_rounded X W Di angle fd r bd (some R) rough L (some "Ito") = .ok K) ∧
    bend_rounded X W Di angle fd r bd none rough L (some "Miller") = .error .valueError ∧
    bend_rounded X W Di angle fd r bd none rough L (some "Ito") = .error .valueError := by
  have hp := pi_pos
  have hD0 : 0 < Di := lt_of_lt_of_le (by norm_num) hD
  have hbd : 0 < bd.getD 5 := by
    cases bd with
    | none => norm_num
    | some b => exact hb b rfl
  obtain ⟨f, hf⟩ := C49_friction_defined hD
  have hf : ft_Crane Di = .ok f := hf.ftOr
  obtain ⟨c, ec⟩ : ∃ c, c = r.getD (Di * bd.getD 5) := ⟨_, rfl⟩
  have hc0 : 0 < c := by
    rw [ec]
    cases r with
    | none => exact mul_pos hD0 hbd
    | some x => exact hr x rfl
  have hs : 0 ≤ angle * (π / 180) := by positivity
  have hq : 0 < Di / c := by positivity
  have hq' : 0 < c / Di := by positivity
  refine ⟨?_, ?_, ?_, ?_, fun h hR => ?_, ?_, ?_⟩
  · obtain ⟨y, hy⟩ := interp_total angle (dx := crane_standard_bend_angles) (dy := crane_standard_bend_losses)
      (by norm_num [crane_standard_bend_angles]) rfl (by simp [crane_standard_bend_angles]) none none true
    simp only [bend_rounded, Option.getD_some, String.reduceEq, if_true, if_false, hf, hy, Py.ok_bind, Py.pure_eq]
    exact ⟨_, rfl⟩
  · simp only [bend_rounded, Option.getD_some, String.reduceEq, if_true, if_false, ← ec, pdiv_ok hc0.ne', ppow_ok hq, psqrt_ok hs,
      Py.ok_bind, Py.pure_eq]
    exact ⟨_, rfl⟩
  · have h3 : Di * bd.getD 5 ≠ 0 := by positivity
    simp only [bend_rounded, Option.getD_some, Option.getD_none, String.reduceEq, if_true, if_false, bend_rounded_Crane, pdiv_ok h3, Py.ok_bind, div_self h3,
      sub_self, abs_zero]
    rw [if_neg (by norm_num)]
    simp only [Py.ok_bind, hf, pdiv_ok hD0.ne', Py.pure_eq]
    exact ⟨_, rfl⟩
  · simp only [bend_rounded, Option.getD_some, String.reduceEq, if_true, if_false]
  · rw [← ec] at h
    have hal : ∃ al, itoAlpha Di angle c (c / Di) (Di / c) = .ok al := by
      simp only [itoAlpha]
      split_ifs
      · exact ⟨_, rfl⟩
      · simp only [ppow_ok hq, Py.ok_bind, Py.pure_eq]
        apply interp_total (dx := [45, 90, 180])
        · norm_num
        · rfl
        · simp
      · simp only [ppow_ok hq, Py.ok_bind]
        apply interp_total (dx := [45, 90, 180])
        · norm_num
        · rfl
        · simp
    obtain ⟨al, hal⟩ := hal
    simp only [bend_rounded, Option.getD_some, String.reduceEq, if_true, if_false, ← ec, bend_rounded_Ito, hc0.ne', pdiv_ok hD0.ne',
      pdiv_ok hc0.ne', Py.ok_bind]
    rw [hal]
    simp only [Py.ok_bind, not_le.mpr h, if_false, ppow_ok hR, ppow_ok hq', Py.pure_eq]
    exact ⟨_, rfl⟩
  · cases r <;> simp [bend_rounded]
  · cases r <;> simp [bend_rounded]

/-- C50: `bend_rounded` rejects every other method. -/
theorem C50_bend_rounded_unknown {fd r bd L Re : Option ℝ} {rough : ℝ} {m : String} (h : m ∉ bend_rounded_methods) :
    bend_rounded X W Di angle fd r bd Re rough L (some m) = .error .valueError := by
  simp only [bend_rounded_methods, List.mem_cons, List.not_mem_nil, or_false, not_or] at h
  cases r <;> simp only [bend_rounded, Option.getD_some, h, if_false]

/-- C50 (finding): with the documented argument `rc` and method "Crane" but no `bend_diameters`, `bend_rounded` passes on the default 5
bend diameters as well, and is rejected with ValueError for every radius that is not five diameters. -/
theorem C50_bend_rounded_Crane_rc {fd L Re : Option ℝ} {rough : ℝ} (hr : 0 < rc) (h : |5 * Di / rc - 1| > 1e-12) :
    bend_rounded X W Di angle fd (some rc) none Re rough L (some "Crane") = .error .valueError := by
  simp only [bend_rounded, Option.getD_some, Option.getD_none, String.reduceEq, if_true, if_false, bend_rounded_Crane, pdiv_ok hr.ne', Py.ok_bind]
  rw [mul_comm Di 5, if_pos h]; rfl

example : |5 * (0.1 : ℝ) / 0.3 - 1| > 1e-12 := by norm_num [abs_of_pos]

/-- C50: `bend_miter`: which arguments each method needs, and what it rejects. -/
theorem C50_bend_miter {L : Option ℝ} {rough R : ℝ} (hD : 1e-3 ≤ Di) (hR : 0 < R) :
    (∃ K, bend_miter X angle none none rough L (some "Rennels") = .ok K ∧ bend_miter X angle none none rough L none = .ok K) ∧
    (∃ K, bend_miter X angle (some Di) none rough L (some "Crane") = .ok K) ∧
    (∃ K, bend_miter X angle none (some R) rough L (some "Blevins") = .ok K) ∧
    bend_miter X angle (some Di) (some R) rough L (some "Miller") = X.miterMiller Di angle R rough L ∧
    (∀ Re, bend_miter X angle none Re rough L (some "Crane") = .error .valueError ∧
      bend_miter X angle none Re rough L (some "Miller") = .error .valueError) ∧
    (∀ D, bend_miter X angle D none rough L (some "Miller") = .error .valueError ∧
      bend_miter X angle D none rough L (some "Blevins") = .error .valueError) ∧
    (∀ D Re m, m ∉ bend_miter_methods → bend_miter X angle D Re rough L (some m) = .error .valueError) := by
  have hD0 : 0 < Di := lt_of_lt_of_le (by norm_num) hD
  obtain ⟨f, hf⟩ := C49_friction_defined hD
  have hf : ft_Crane Di = .ok f := hf.ftOr
  obtain ⟨y, hy⟩ := interp_total angle (dx := bend_miter_Crane_angles) (dy := bend_miter_Crane_fds)
    (by norm_num [bend_miter_Crane_angles]) rfl (by simp [bend_miter_Crane_angles]) none none false
  obtain ⟨z, hz⟩ := interp_total angle (dx := bend_miter_Blevins_angles) (dy := bend_miter_Blevins_Ks)
    (by norm_num [bend_miter_Blevins_angles]) rfl (by simp [bend_miter_Blevins_angles]) none none false
  have h2 : (0 : ℝ) < 2e5 / R := by positivity
  refine ⟨⟨_, rfl, rfl⟩, ?_, ?_, ?_, fun Re => ⟨?_, ?_⟩, fun D => ⟨?_, ?_⟩, fun D Re m h => ?_⟩
  · simp only [bend_miter, Option.getD_some, String.reduceEq, if_true, if_false, hf, hy, Py.ok_bind, Py.pure_eq]; exact ⟨_, rfl⟩
  · simp only [bend_miter, Option.getD_some, String.reduceEq, if_true, if_false, hz, Py.ok_bind, Py.pure_eq, pdiv_ok hR.ne', ppow_ok h2]
    exact ⟨_, rfl⟩
  · simp only [bend_miter, Option.getD_some, String.reduceEq, if_true, if_false]
  · simp only [bend_miter, Option.getD_some, String.reduceEq, if_true, if_false]
  · cases Re <;> simp only [bend_miter, Option.getD_some, String.reduceEq, if_true, if_false]
  · cases D <;> simp only [bend_miter, Option.getD_some, String.reduceEq, if_true, if_false]
  · simp only [bend_miter, Option.getD_some, String.reduceEq, if_true, if_false]
  · simp only [bend_miter_methods, List.mem_cons, List.not_mem_nil, or_false, not_or] at h
    simp only [bend_miter, Option.getD_some, h, if_false]

/-! ### contractions -/

theorem hooperContraction_total {fd : Option ℝ} {R rough : ℝ} (h1 : 0 < Di1) (h2 : 0 < Di2) (hR : 0 < R)
    (hf : HasFriction fd (some R) rough Di1 ∨ R ≤ 2500) : ∃ K, hooperContraction Di1 Di2 fd (some R) rough = .ok K := by
  by_cases hh : R ≤ 2500
  · (simp only [hooperContraction, pdiv_ok h2.ne', Py.ok_bind, if_pos hh, pdiv_ok hR.ne', Py.pure_eq]; exact ⟨_, rfl⟩)
  · rcases hf with hf | hf
    · cases fd with
      | some f => (simp only [hooperContraction, pdiv_ok h2.ne', Py.ok_bind, if_neg hh, Py.pure_eq]; exact ⟨_, rfl⟩)
      | none =>
        rcases hf with ⟨f, hf⟩ | ⟨R', hR', ht⟩
        · simp at hf
        · obtain rfl := Option.some.inj hR'
          obtain ⟨f, hf⟩ := ok_Clamond ht false
          (simp only [hooperContraction, pdiv_ok h2.ne', Py.ok_bind, if_neg hh, Py.pure_eq, pdiv_ok h1.ne', hf]; exact ⟨_, rfl⟩)
    · exact absurd hf hh

/-- C50: `contraction_sharp`: Rennels and Crane need the diameters only, Hooper a Reynolds number. -/
theorem C50_contraction_sharp {fd Re : Option ℝ} {rough R : ℝ} (h1 : 0 < Di1) (h2 : 0 < Di2) (hR : 0 < R) :
    (∃ K, contraction_sharp Di1 Di2 none none rough "Rennels" = .ok K) ∧ (∃ K, contraction_sharp Di1 Di2 none none rough "Crane" = .ok K) ∧
    (HasFriction fd (some R) rough Di1 ∨ R ≤ 2500 → ∃ K, contraction_sharp Di1 Di2 fd (some R) rough "Hooper" = .ok K) ∧
    contraction_sharp Di1 Di2 fd none rough "Hooper" = .error .valueError ∧
    (∀ m, m ∉ contraction_sharp_methods → contraction_sharp Di1 Di2 fd Re rough m = .error .valueError) := by
  have hs : 0 ≤ sin (0.5 * π) := sin_nonneg_of_nonneg_of_le_pi (by positivity) (by linarith [pi_pos])
  refine ⟨?_, ?_, fun h => ?_, ?_, fun m h => ?_⟩
  · (simp only [contraction_sharp, String.reduceEq, if_true, pdiv_ok h1.ne', Py.ok_bind, Py.pure_eq]; exact ⟨_, rfl⟩)
  · have : ¬ π < 0.25 * π := by linarith [pi_pos]
    (simp only [contraction_sharp, contraction_conical_Crane, String.reduceEq, if_true, if_false, pdiv_ok h1.ne', Py.ok_bind,
      Py.pure_eq, this, psqrt_ok hs]; exact ⟨_, rfl⟩)
  · obtain ⟨K, hK⟩ := hooperContraction_total h1 h2 hR h
    (simp only [contraction_sharp, String.reduceEq, if_true, if_false, hK, Py.ok_bind, change_ok h1]; exact ⟨_, rfl⟩)
  · simp [contraction_sharp, hooperContraction]
  · simp only [contraction_sharp_methods, List.mem_cons, List.not_mem_nil, or_false, not_or] at h
    simp only [contraction_sharp, h, if_false]

/-- C50: `contraction_round`. -/
theorem C50_contraction_round (h1 : 0 < Di1) (h2 : 0 < Di2) (hr : 0 ≤ rc) :
    (∃ K, contraction_round X Di1 Di2 rc (some "Rennels") = .ok K ∧ contraction_round X Di1 Di2 rc none = .ok K) ∧
    contraction_round X Di1 Di2 rc (some "Miller") = X.contractRoundMiller Di1 Di2 rc ∧
    (∃ K, contraction_round X Di1 Di2 rc (some "Idelchik") = .ok K) ∧
    (∀ m, m ∉ contraction_round_methods → contraction_round X Di1 Di2 rc (some m) = .error .valueError) := by
  have hq : 0 ≤ rc / Di2 := by positivity
  refine ⟨?_, ?_, ?_, fun m h => ?_⟩
  · exact ⟨_, by simp only [contraction_round, Option.getD_some, if_true, pdiv_ok h1.ne', pdiv_ok h2.ne', psqrt_ok hq, Py.ok_bind, Py.pure_eq]; rfl,
      by simp only [contraction_round, Option.getD_none, if_true, pdiv_ok h1.ne', pdiv_ok h2.ne', psqrt_ok hq, Py.ok_bind, Py.pure_eq]⟩
  · simp only [contraction_round, Option.getD_some, if_true, if_false, String.reduceEq, pdiv_ok h1.ne', Py.ok_bind]
  · obtain ⟨y, hy⟩ := interp_total (rc / Di2) (dx := contraction_round_Idelchik_ratios) (dy := contraction_round_Idelchik_factors)
      (by norm_num [contraction_round_Idelchik_ratios]) rfl (by simp [contraction_round_Idelchik_ratios]) none none false
    (simp only [contraction_round, Option.getD_some, if_true, if_false, String.reduceEq, pdiv_ok h1.ne', pdiv_ok h2.ne', hy,
      Py.ok_bind, Py.pure_eq]; exact ⟨_, rfl⟩)
  · simp only [contraction_round_methods, List.mem_cons, List.not_mem_nil, or_false, not_or] at h
    simp only [contraction_round, Option.getD_some, h, if_false, pdiv_ok h1.ne', Py.ok_bind]

theorem contraction_conical_Crane_total {L : ℝ} (h2 : 0 < Di2) (h12 : Di2 < Di1) (hL : 0 < L) (a : Option ℝ) :
    ∃ K, contraction_conical_Crane Di1 Di2 (some L) a = .ok K := by
  have h1 : 0 < Di1 := by linarith
  have hp := pi_pos
  have hL2 : 2 * L ≠ 0 := by positivity
  have h3 := arctan_nonneg.mpr (div_nonneg (by linarith) (by positivity) : 0 ≤ (Di1 - Di2) / (2 * L))
  have h4 := arctan_lt_pi_div_two ((Di1 - Di2) / (2 * L))
  have hs : 0 ≤ sin (0.5 * (2 * arctan ((Di1 - Di2) / (2 * L)))) := sin_nonneg_of_nonneg_of_le_pi (by linarith) (by linarith)
  simp only [contraction_conical_Crane, hL.ne', if_false, pdiv_ok hL2, Py.ok_bind, Py.pure_eq, pdiv_ok h1.ne', psqrt_ok hs]
  split_ifs <;> exact ⟨_, rfl⟩

/-- C50: `contraction_conical` of a cone given by its full angle (or, by `C48_contraction_length_angle`, by its length): Rennels needs a
friction factor or Re, Hooper Re, the others only the cone. -/
theorem C50_contraction_conical {fd Re : Option ℝ} {rough R a : ℝ} (h2 : 0 < Di2) (h12 : Di2 < Di1) (h0 : 0 < a) (h180 : a < 180) (hR : 0 < R) :
    (HasFriction fd Re rough Di2 → ∃ K, contraction_conical X Di1 Di2 fd none (some a) Re rough "Rennels" = .ok K) ∧
    contraction_conical X Di1 Di2 none none (some a) none rough "Rennels" = .error .valueError ∧
    (∀ m ∈ ["Idelchik", "Crane", "Swamee", "Blevins", "Miller"], ∃ K, contraction_conical X Di1 Di2 none none (some a) none rough m = .ok K) ∧
    (HasFriction fd (some R) rough Di1 ∨ R ≤ 2500 → ∃ K, contraction_conical X Di1 Di2 fd none (some a) (some R) rough "Hooper" = .ok K) ∧
    contraction_conical X Di1 Di2 fd none (some a) none rough "Hooper" = .error .valueError ∧
    (∀ m, contraction_conical X Di1 Di2 fd none none Re rough m = .error .valueError) ∧
    (∀ m, m ∉ contraction_conical_methods → contraction_conical X Di1 Di2 fd none (some a) Re rough m = .error .valueError) := by
  have hp := pi_pos
  have h1 : 0 < Di1 := by linarith
  have ht := tan_half_pos h0 h180
  have ht2 : 2 * tan (0.5 * (a * (π / 180))) ≠ 0 := by positivity
  have hs : 0 < sin (0.5 * (a * (π / 180))) := sin_pos_of_pos_of_lt_pi (by positivity) (by nlinarith)
  have hs8 : 8 * sin (0.5 * (a * (π / 180))) ≠ 0 := by positivity
  have har : 0 < a * (π / 180) := by positivity
  have har2 : 0 < a * (π / 180) / π := by positivity
  have hA1 : Di1 * Di1 ≠ 0 := by positivity
  have hA2 : Di2 * Di2 ≠ 0 := by positivity
  have hA3 : Di2 * 0.5 ≠ 0 := by positivity
  refine ⟨fun h => ?_, ?_, ?_, fun h => ?_, ?_, fun m => ?_, fun m h => ?_⟩
  · obtain ⟨f, hf⟩ := h.get h2
    simp only [contraction_conical, pdiv_ok h1.ne', pdiv_ok ht2, Py.ok_bind, Py.pure_eq, if_true]
    rw [hf]
    simp only [Py.ok_bind, ppow_ok har2, pdiv_ok hs8, Py.pure_eq]
    exact ⟨_, rfl⟩
  · simp only [contraction_conical, pdiv_ok h1.ne', pdiv_ok ht2, Py.ok_bind, Py.pure_eq, if_true, Py.error_bind, fdOr]
  · simp only [List.forall_mem_cons, List.not_mem_nil, false_implies, implies_true, and_true]
    refine ⟨?_, ?_, ?_, ?_, ?_⟩ <;>
      simp only [contraction_conical, pdiv_ok h1.ne', pdiv_ok h2.ne', pdiv_ok ht2, Py.ok_bind, Py.pure_eq, if_true, if_false, String.reduceEq,
        pdiv_ok hA1, pdiv_ok hA2, pdiv_ok hA3, ppow_ok har] <;> try exact ⟨_, rfl⟩
    exact contraction_conical_Crane_total h2 h12 (div_pos (by linarith) (by positivity)) _
  · obtain ⟨K, hK⟩ := hooperContraction_total h1 h2 hR h
    simp only [contraction_conical, pdiv_ok h1.ne', pdiv_ok ht2, Py.ok_bind, Py.pure_eq, if_true, if_false, String.reduceEq, hK, psqrt_ok hs.le]
    split_ifs <;> simp only [Py.ok_bind, change_ok h1] <;> exact ⟨_, rfl⟩
  · simp only [contraction_conical, pdiv_ok h1.ne', pdiv_ok ht2, Py.ok_bind, Py.pure_eq, if_true, if_false, String.reduceEq, hooperContraction,
      Py.error_bind]
  · simp only [contraction_conical, pdiv_ok h1.ne', Py.ok_bind, Py.error_bind]
  · simp only [contraction_conical_methods, List.mem_cons, List.not_mem_nil, or_false, not_or] at h
    simp only [contraction_conical, h, if_false, pdiv_ok h1.ne', pdiv_ok ht2, Py.ok_bind, Py.pure_eq]

/-! ### diffusers -/

theorem hooperExpansion_total {fd : Option ℝ} {b R rough : ℝ} (h1 : 0 < Di1) (hf : HasFriction fd (some R) rough Di1 ∨ R < 4000) :
    ∃ K, hooperExpansion b Di1 fd (some R) rough = .ok K := by
  by_cases hh : R < 4000
  · (simp only [hooperExpansion, if_pos hh]; exact ⟨_, rfl⟩)
  · rcases hf with hf | hf
    · cases fd with
      | some f => (simp only [hooperExpansion, Py.ok_bind, if_neg hh, Py.pure_eq]; exact ⟨_, rfl⟩)
      | none =>
        rcases hf with ⟨f, hf⟩ | ⟨R', hR', ht⟩
        · simp at hf
        · obtain rfl := Option.some.inj hR'
          obtain ⟨f, hf⟩ := ok_Clamond ht false
          (simp only [hooperExpansion, Py.ok_bind, if_neg hh, Py.pure_eq, pdiv_ok h1.ne', hf]; exact ⟨_, rfl⟩)
    · exact absurd hf hh

/-- C50: `diffuser_sharp`. -/
theorem C50_diffuser_sharp {fd Re : Option ℝ} {rough R : ℝ} (h1 : 0 < Di1) (h2 : 0 < Di2) :
    (∃ K, diffuser_sharp Di1 Di2 none none rough "Rennels" = .ok K) ∧
    (HasFriction fd (some R) rough Di1 ∨ R < 4000 → ∃ K, diffuser_sharp Di1 Di2 (some R) fd rough "Hooper" = .ok K) ∧
    diffuser_sharp Di1 Di2 none fd rough "Hooper" = .error .valueError ∧
    (∀ m, m ∉ diffuser_sharp_methods → diffuser_sharp Di1 Di2 Re fd rough m = .error .valueError) := by
  refine ⟨⟨_, C48_diffuser_sharp h2⟩, fun h => ?_, ?_, fun m h => ?_⟩
  · obtain ⟨K, hK⟩ := hooperExpansion_total (b := Di1 / Di2) h1 h
    exact ⟨K, by simp only [diffuser_sharp, pdiv_ok h2.ne', Py.ok_bind, String.reduceEq, if_true, if_false, hK]⟩
  · simp only [diffuser_sharp, pdiv_ok h2.ne', Py.ok_bind, String.reduceEq, if_true, if_false, hooperExpansion]
  · simp only [diffuser_sharp_methods, List.mem_cons, List.not_mem_nil, or_false, not_or] at h
    simp only [diffuser_sharp, h, if_false, pdiv_ok h2.ne', Py.ok_bind]

/-- C50: `diffuser_conical` of a cone given by its full angle (or, by `C48_diffuser_length_angle`, by its length). -/
theorem C50_diffuser_conical {fd Re : Option ℝ} {rough R a : ℝ} (h1 : 0 < Di1) (h12 : Di1 < Di2) (h0 : 0 < a) (h180 : a < 180) :
    (HasFriction fd Re rough Di2 → ∃ K, diffuser_conical X Di1 Di2 none (some a) fd Re rough (some "Rennels") = .ok K) ∧
    diffuser_conical X Di1 Di2 none (some a) none none rough (some "Rennels") = .error .valueError ∧
    (∀ m ∈ ["Crane", "Miller", "Swamee", "Idelchik"], ∃ K, diffuser_conical X Di1 Di2 none (some a) none none rough (some m) = .ok K) ∧
    (HasFriction fd (some R) rough Di1 ∨ R < 4000 → ∃ K, diffuser_conical X Di1 Di2 none (some a) fd (some R) rough (some "Hooper") = .ok K) ∧
    diffuser_conical X Di1 Di2 none (some a) fd none rough (some "Hooper") = .error .valueError ∧
    (∀ m, diffuser_conical X Di1 Di2 none none fd Re rough m = .error .valueError) ∧
    diffuser_conical X Di1 Di2 none (some a) fd Re rough none = diffuser_conical X Di1 Di2 none (some a) fd Re rough (some "Rennels") ∧
    (∀ m, m ∉ diffuser_conical_methods → diffuser_conical X Di1 Di2 none (some a) fd Re rough (some m) = .error .valueError) := by
  have hp := pi_pos
  have h2 : 0 < Di2 := by linarith
  have ht := tan_half_pos h0 h180
  have ht2 : 2 * tan (0.5 * (a * (π / 180))) ≠ 0 := by positivity
  have hs : 0 < sin (0.5 * (a * (π / 180))) := sin_pos_of_pos_of_lt_pi (by positivity) (by nlinarith)
  have har : 0 < a * (π / 180) := by positivity
  have har2 : a * (π / 180) < π := by nlinarith
  have hb : 0 < Di1 / Di2 := by positivity
  have hb2 : Di1 / Di2 * (Di1 / Di2) ≠ 0 := by positivity
  have hb4 : Di1 / Di2 * (Di1 / Di2) * (Di1 / Di2 * (Di1 / Di2)) ≠ 0 := by positivity
  have h5 : 0.5 * Di1 ≠ 0 := by positivity
  refine ⟨fun h => ?_, ?_, ?_, fun h => ?_, ?_, fun m => ?_, rfl, fun m h => ?_⟩
  · obtain ⟨f, hf⟩ := h.get h2
    simp only [diffuser_conical, pdiv_ok h2.ne', pdiv_ok ht2, Py.ok_bind, Py.pure_eq, if_true, Option.getD_some]
    rw [hf]
    simp only [Py.ok_bind]
    have hw : 20 < a → a ≤ 60 → 0 ≤ sin (2 * π * (a - 15) / 180) := fun q1 q2 =>
      sin_nonneg_of_nonneg_of_le_pi (by have : 0 < a - 15 := by linarith
                                        positivity) (by nlinarith)
    by_cases c1 : 0 < a ∧ a ≤ 20
    · rw [if_pos c1]; simp only [ppow_ok ht, pdiv_ok hs.ne', Py.ok_bind]; exact ⟨_, rfl⟩
    rw [if_neg c1]
    have c1' : 20 < a := by by_contra hh; exact c1 ⟨h0, not_lt.mp hh⟩
    by_cases c2 : (20 < a ∧ a ≤ 60) ∧ 0 ≤ Di1 / Di2 ∧ Di1 / Di2 < 0.5
    · rw [if_pos c2]
      have q : 0 ≤ 0.025 * (a - 20) := by have := c2.1.1; linarith
      simp only [psqrt_ok (hw c2.1.1 c2.1.2), psqrt_ok q, pdiv_ok hs.ne', Py.ok_bind]; exact ⟨_, rfl⟩
    rw [if_neg c2]
    by_cases c3 : (20 < a ∧ a ≤ 60) ∧ Di1 / Di2 ≥ 0.5
    · rw [if_pos c3]
      simp only [psqrt_ok (hw c3.1.1 c3.1.2), pdiv_ok hs.ne', Py.ok_bind]; exact ⟨_, rfl⟩
    rw [if_neg c3]
    have c3' : 60 < a := by
      by_contra hh
      by_cases q : Di1 / Di2 < 0.5
      · exact c2 ⟨⟨c1', not_lt.mp hh⟩, hb.le, q⟩
      · exact c3 ⟨⟨c1', not_lt.mp hh⟩, not_lt.mp q⟩
    have q : 0 ≤ (a - 60) / 120 := by apply div_nonneg <;> linarith
    by_cases c4 : (60 < a ∧ a ≤ 180) ∧ 0 ≤ Di1 / Di2 ∧ Di1 / Di2 < 0.5
    · rw [if_pos c4]; simp only [psqrt_ok q, Py.ok_bind]; exact ⟨_, rfl⟩
    rw [if_neg c4]
    by_cases c5 : (60 < a ∧ a ≤ 180) ∧ Di1 / Di2 ≥ 0.5
    · rw [if_pos c5]; simp only [psqrt_ok q, Py.ok_bind]; exact ⟨_, rfl⟩
    · exfalso
      by_cases q : Di1 / Di2 < 0.5
      · exact c4 ⟨⟨c3', h180.le⟩, hb.le, q⟩
      · exact c5 ⟨⟨c3', h180.le⟩, not_lt.mp q⟩
  · simp only [diffuser_conical, pdiv_ok h2.ne', pdiv_ok ht2, Py.ok_bind, Py.pure_eq, if_true, Option.getD_some, Py.error_bind, fdOr]
  · simp only [List.forall_mem_cons, List.not_mem_nil, false_implies, implies_true, and_true]
    refine ⟨?_, ?_, ?_, ?_⟩
    · simp only [diffuser_conical, pdiv_ok h2.ne', pdiv_ok ht2, Py.ok_bind, Py.pure_eq, if_true, if_false, String.reduceEq, Option.getD_some,
        diffuser_conical_Crane, pdiv_ok hb4]
      split_ifs <;> exact ⟨_, rfl⟩
    · simp only [diffuser_conical, pdiv_ok h2.ne', pdiv_ok ht2, Py.ok_bind, Py.pure_eq, if_true, if_false, String.reduceEq, Option.getD_some,
        pdiv_ok hb2, pdiv_ok h5]
      exact ⟨_, rfl⟩
    · have hr : 0 < Di2 / Di1 := by positivity
      have hm : 0 < 1 + 0.6 * (Di2 / Di1) ^ (-1.67 : ℝ) * (π - a * (π / 180)) / (a * (π / 180)) := by
        have := rpow_pos_of_pos hr (-1.67)
        have : 0 < π - a * (π / 180) := by linarith
        positivity
      have hq : 0 < 0.25 * (a * (π / 180)) ^ (-3 : ℝ) *
          (1 + 0.6 * (Di2 / Di1) ^ (-1.67 : ℝ) * (π - a * (π / 180)) / (a * (π / 180))) ^ (0.533 * (Di2 / Di1) - 2.6) := by
        have := rpow_pos_of_pos har (-3)
        have := rpow_pos_of_pos hm (0.533 * (Di2 / Di1) - 2.6)
        positivity
      have hq2 := (sqrt_pos.mpr hq).ne'
      simp only [diffuser_conical, pdiv_ok h2.ne', pdiv_ok h1.ne', pdiv_ok ht2, Py.ok_bind, Py.pure_eq, if_true, if_false, String.reduceEq,
        Option.getD_some, ppow_ok hr, pdiv_ok har.ne', ppow_ok hm, ppow_ok har, psqrt_ok hq.le, pdiv_ok hq2]
      exact ⟨_, rfl⟩
    · simp only [diffuser_conical, pdiv_ok h2.ne', pdiv_ok ht2, Py.ok_bind, Py.pure_eq, if_true, if_false, String.reduceEq, Option.getD_some]
      exact ⟨_, rfl⟩
  · obtain ⟨K, hK⟩ := hooperExpansion_total (b := Di1 / Di2) h1 h
    simp only [diffuser_conical, pdiv_ok h2.ne', pdiv_ok ht2, Py.ok_bind, Py.pure_eq, if_true, if_false, String.reduceEq, Option.getD_some, hK]
    split_ifs <;> exact ⟨_, rfl⟩
  · simp only [diffuser_conical, pdiv_ok h2.ne', pdiv_ok ht2, Py.ok_bind, Py.pure_eq, if_true, if_false, String.reduceEq, Option.getD_some,
      hooperExpansion, Py.error_bind]
  · simp only [diffuser_conical, pdiv_ok h2.ne', Py.ok_bind, Py.error_bind]
  · simp only [diffuser_conical_methods, List.mem_cons, List.not_mem_nil, or_false, not_or] at h
    simp only [diffuser_conical, h, if_false, pdiv_ok h2.ne', pdiv_ok ht2, Py.ok_bind, Py.pure_eq, Option.getD_some]

example : HasFriction none (some 1e5) 0 0.3 := .inr ⟨1e5, rfl, ⟨by norm_num, by norm_num, by norm_num⟩⟩

end Verif.Fittings
