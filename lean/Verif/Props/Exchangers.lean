import Verif.Model.Exchangers
import Mathlib.Analysis.SpecialFunctions.Integrals.Basic
import Mathlib.Tactic

/-! C114: exchanger geometry and shape factors (`fluids/geometry.py`). -/

namespace Verif.Exchangers
open Verif Verif.Geometry Real

/-! ### Shape factors -/

/-- C114: a sphere has sphericity 1, a circle circularity 1, a square circularity π/4; the factors do not depend on the unit of length. -/
theorem C114_shapes (r : ℝ) (hr : 0 < r) :
    sphericity (4 * π * r ^ 2) (4 / 3 * π * r ^ 3) = .ok 1 ∧ circularity (π * r ^ 2) (2 * π * r) = .ok 1 ∧ circularity (r ^ 2) (4 * r) = .ok (π / 4) ∧
    (∀ A V c, 0 < A → 0 < V → 0 < c → sphericity (c ^ 2 * A) (c ^ 3 * V) = sphericity A V) ∧ (∀ A P c, 0 < P → 0 < c → circularity (c ^ 2 * A) (c * P) = circularity A P) ∧
    (∀ a b c, 0 < b → 0 < c → aspect_ratio (c * a) (c * b) = aspect_ratio a b) := by
  have hpi := pi_pos
  refine ⟨?_, ?_, ?_, ?_, ?_, ?_⟩
  · unfold sphericity
    rw [ppow_ok hpi, Py.ok_bind, ppow_ok (by positivity), Py.ok_bind, pdiv_ok (by positivity)]
    congr 1
    have e : 6 * (4 / 3 * π * r ^ 3) = π * (2 * r) ^ 3 := by ring
    have h2 : (0 : ℝ) ≤ (2 * r) := by positivity
    rw [e, mul_rpow hpi.le (by positivity), ← rpow_natCast (2 * r) 3, ← rpow_mul h2, ← mul_assoc, ← rpow_add hpi]
    norm_num
    have e2 : (2 * r : ℝ) ^ (2 : ℝ) = (2 * r) ^ 2 := by rw [← rpow_natCast]; norm_num
    first
      | (field_simp; ring)
      | (rw [e2]; field_simp; ring)
  · unfold circularity
    rw [pdiv_ok (by positivity)]
    congr 1
    field_simp
    ring
  · unfold circularity
    rw [pdiv_ok (by positivity)]
    congr 1
    field_simp
  · intro A V c hA hV hc
    unfold sphericity
    rw [ppow_ok hpi, Py.ok_bind, Py.ok_bind, ppow_ok (by positivity), Py.ok_bind, ppow_ok (by positivity), Py.ok_bind, pdiv_ok (by positivity), pdiv_ok hA.ne']
    congr 1
    have e : 6 * (c ^ 3 * V) = c ^ 3 * (6 * V) := by ring
    have e2 : (c ^ 3) ^ (2 / 3 : ℝ) = c ^ 2 := by
      rw [← rpow_natCast c 3, ← rpow_mul hc.le, ← rpow_natCast c 2]; norm_num
    rw [e, mul_rpow (by positivity) (by positivity), e2]
    field_simp
  · intro A P c hP hc
    unfold circularity
    rw [pdiv_ok (by positivity), pdiv_ok (by positivity)]
    congr 1
    field_simp
  · intro a b c hb hc
    unfold aspect_ratio
    rw [pdiv_ok (by positivity), pdiv_ok hb.ne']
    congr 1
    field_simp

/-! ### Plate exchangers -/

lemma quarter (c : ℝ) : ∫ u in (0 : ℝ)..(2 * π), √(1 + c * cos u ^ 2) = 4 * ∫ u in (0 : ℝ)..(π / 2), √(1 + c * sin u ^ 2) := by
  have hcont : Continuous fun u : ℝ => √(1 + c * cos u ^ 2) := by fun_prop
  have hi : ∀ a b : ℝ, IntervalIntegrable (fun u : ℝ => √(1 + c * cos u ^ 2)) MeasureTheory.volume a b := fun a b => hcont.intervalIntegrable a b
  have h1 : ∫ u in (0 : ℝ)..(π / 2), √(1 + c * cos u ^ 2) = ∫ u in (0 : ℝ)..(π / 2), √(1 + c * sin u ^ 2) := by
    have := intervalIntegral.integral_comp_sub_left (a := 0) (b := π / 2) (fun u : ℝ => √(1 + c * cos u ^ 2)) (π / 2)
    simp only [cos_pi_div_two_sub, sub_self, sub_zero] at this
    exact this.symm
  have h2 : ∫ u in (π / 2)..π, √(1 + c * cos u ^ 2) = ∫ u in (0 : ℝ)..(π / 2), √(1 + c * sin u ^ 2) := by
    have := intervalIntegral.integral_comp_add_right (a := 0) (b := π / 2) (fun u : ℝ => √(1 + c * cos u ^ 2)) (π / 2)
    simp only [cos_add_pi_div_two, neg_sq, zero_add, add_halves] at this
    exact this.symm
  have h3 : ∫ u in π..(2 * π), √(1 + c * cos u ^ 2) = ∫ u in (0 : ℝ)..π, √(1 + c * cos u ^ 2) := by
    have := intervalIntegral.integral_comp_add_right (a := 0) (b := π) (fun u : ℝ => √(1 + c * cos u ^ 2)) π
    simp only [cos_add_pi, neg_sq, zero_add] at this
    rw [two_mul]
    exact this.symm
  rw [← intervalIntegral.integral_add_adjacent_intervals (hi 0 π) (hi π (2 * π)), h3, ← intervalIntegral.integral_add_adjacent_intervals (hi 0 (π / 2)) (hi (π / 2) π), h1, h2]
  ring

/-- C114: the plate enlargement factor is the length of one sine wave of the given amplitude over its wavelength; it is at least 1. -/
theorem C114_enlargement (ellipe : ℝ → ℝ) (hE : ∀ m ≤ 1, ellipe m = ∫ u in (0 : ℝ)..(π / 2), √(1 - m * sin u ^ 2)) (a w : ℝ) (hw : 0 < w) :
    ∃ phi, plate_enlargement_factor ellipe a w = .ok phi ∧ phi = (∫ x in (0 : ℝ)..w, √(1 + (deriv (fun x => a * sin (2 * π / w * x)) x) ^ 2)) / w ∧ 1 ≤ phi := by
  have hpi := pi_pos
  have hw0 := hw.ne'
  set c : ℝ := (2 * π * a / w) ^ 2 with hc
  have hm : -(2 * a) * (2 * a) * π * π / (w * w) = -c := by rw [hc]; field_simp; try ring
  have hval : plate_enlargement_factor ellipe a w = .ok (2 * (∫ u in (0 : ℝ)..(π / 2), √(1 + c * sin u ^ 2)) / π) := by
    unfold plate_enlargement_factor
    simp only
    rw [pdiv_ok (by positivity), Py.ok_bind, hm, hE _ (by rw [hc]; nlinarith [sq_nonneg (2 * π * a / w)])]
    simp only [neg_mul, sub_neg_eq_add]
    rfl
  refine ⟨_, hval, ?_, ?_⟩
  · have hd : ∀ x : ℝ, (deriv (fun x => a * sin (2 * π / w * x)) x) ^ 2 = c * cos (2 * π / w * x) ^ 2 := by
      intro x
      have h1 : HasDerivAt (fun x : ℝ => 2 * π / w * x) (2 * π / w) x := by simpa using (hasDerivAt_id x).const_mul (2 * π / w)
      have h2 := ((Real.hasDerivAt_sin (2 * π / w * x)).comp x h1).const_mul a
      have h3 : deriv (fun x => a * sin (2 * π / w * x)) x = a * (cos (2 * π / w * x) * (2 * π / w)) := h2.deriv
      rw [h3, hc]
      ring
    simp only [hd]
    have hs := intervalIntegral.integral_comp_mul_left (a := 0) (b := w) (fun u : ℝ => √(1 + c * cos u ^ 2)) (c := 2 * π / w) (by positivity)
    rw [hs, mul_zero, div_mul_cancel₀ _ hw0, quarter, smul_eq_mul]
    field_simp
    ring
  · have hc0 : 0 ≤ c := sq_nonneg _
    have hcont : Continuous fun u : ℝ => √(1 + c * sin u ^ 2) := by fun_prop
    have hle : ∫ _u in (0 : ℝ)..(π / 2), (1 : ℝ) ≤ ∫ u in (0 : ℝ)..(π / 2), √(1 + c * sin u ^ 2) := by
      refine intervalIntegral.integral_mono_on (by positivity) (by simp) (hcont.intervalIntegrable _ _) fun u _ => ?_
      rw [Real.one_le_sqrt]
      nlinarith [mul_nonneg hc0 (sq_nonneg (sin u))]
    rw [intervalIntegral.integral_const, smul_eq_mul] at hle
    rw [le_div_iff₀ hpi]
    linarith

/-- C114: the attributes of a plate exchanger fit together. -/
theorem C114_plate {ellipe : ℝ → ℝ} {a w angle : ℝ} {angles : Option (ℝ × ℝ)} {width length d_port plates : Option ℝ} {X : Plate}
    (h : plateExchanger ellipe a w angle angles width length d_port plates = .ok X) :
    X.gamma * w = 4 * a ∧ X.b = 2 * a ∧ X.D_eq = 2 * X.b ∧ X.D_hydraulic * X.phi = X.D_eq ∧ X.inclination_angle + X.chevron_angle = 90 ∧
    2 * X.chevron_angle = X.chevron_angles.1 + X.chevron_angles.2 ∧ (angles = none → X.chevron_angle = angle) ∧ (∀ p, angles = some p → X.chevron_angles = p) ∧
    (∀ l d, length = some l → d_port = some d → X.length_port = some (l + d)) ∧
    (∀ l b, length = some l → width = some b → X.A_plate_surface = some (l * b * X.phi)) ∧
    (∀ l b n, length = some l → width = some b → plates = some n → X.A_heat_transfer = some ((n - 2) * (l * b * X.phi))) ∧
    (∀ b, width = some b → X.A_channel_flow = some (b * X.b)) ∧ (∀ n, plates = some n → X.channels = some (n - 1) ∧ X.channels_per_fluid = some ((n - 1) / 2)) ∧
    (length = none ∨ width = none → X.A_plate_surface = none ∧ X.A_heat_transfer = none) ∧ (plates = none → X.A_heat_transfer = none ∧ X.channels = none) := by
  unfold plateExchanger at h
  dsimp only at h
  obtain ⟨g, hg, h⟩ := Py.bind_eq_ok.1 h
  obtain ⟨phi, hp, h⟩ := Py.bind_eq_ok.1 h
  obtain ⟨Dh, hd, h⟩ := Py.bind_eq_ok.1 h
  have hw : w ≠ 0 := by rintro rfl; rw [pdiv_zero] at hg; cases hg
  have hphi : phi ≠ 0 := by rintro rfl; rw [pdiv_zero] at hd; cases hd
  rw [pdiv_ok hw] at hg
  rw [pdiv_ok hphi] at hd
  obtain rfl := Except.ok.inj hg
  obtain rfl := Except.ok.inj hd
  obtain rfl := (Except.ok.inj h).symm
  refine ⟨div_mul_cancel₀ _ hw, rfl, by ring, div_mul_cancel₀ _ hphi, by ring, ?_, ?_, ?_, ?_, ?_, ?_, ?_, ?_, ?_, ?_⟩
  · cases angles with
    | none => simp only [Option.getD_none]; ring
    | some p => simp only [Option.getD_some]; ring
  · rintro rfl; rfl
  · rintro p rfl; rfl
  · rintro l d rfl rfl; rfl
  · rintro l b rfl rfl; rfl
  · rintro l b n rfl rfl rfl; rfl
  · rintro b rfl; rfl
  · rintro n rfl
    refine ⟨rfl, ?_⟩
    simp only [Option.map_some]
    congr 1
    ring
  · rintro (rfl | rfl)
    · cases width <;> exact ⟨rfl, rfl⟩
    · exact ⟨rfl, rfl⟩
  · rintro rfl
    refine ⟨?_, rfl⟩
    cases width <;> cases length <;> rfl

example : ∃ X, plateExchanger (fun _ => π / 2) 1 2 45 none (some 1) (some 2) none (some 10) = .ok X ∧ X.A_heat_transfer = some 16 := by
  have hpi := pi_pos
  have e : (2 : ℝ) * (π / 2) / π = 1 := by field_simp
  have hphi : plate_enlargement_factor (fun _ => π / 2) 1 2 = .ok 1 := by
    unfold plate_enlargement_factor
    simp only
    rw [pdiv_ok (by norm_num), Py.ok_bind, Py.pure_eq, e]
  have hb : ∃ X, plateExchanger (fun _ => π / 2) 1 2 45 none (some 1) (some 2) none (some 10) = .ok X := by
    unfold plateExchanger
    dsimp only
    rw [pdiv_ok (by norm_num), Py.ok_bind, hphi, Py.ok_bind, pdiv_ok (by norm_num), Py.ok_bind]
    exact ⟨_, rfl⟩
  obtain ⟨X, hX⟩ := hb
  refine ⟨X, hX, ?_⟩
  have hp : X.phi = 1 := by
    unfold plateExchanger at hX
    dsimp only at hX
    rw [pdiv_ok (by norm_num), Py.ok_bind, hphi, Py.ok_bind, pdiv_ok (by norm_num), Py.ok_bind] at hX
    rw [← Except.ok.inj hX]
  obtain ⟨-, -, -, -, -, -, -, -, -, -, h, -⟩ := C114_plate hX
  rw [h 2 1 10 rfl rfl rfl, hp]
  norm_num

/-! ### Plate-fin exchangers -/

lemma roundEven_int (n : ℤ) : roundEven n = n := by
  unfold roundEven
  rw [Int.floor_intCast, sub_self, if_pos (by norm_num)]

lemma roundEven_near (x : ℝ) : |roundEven x - x| ≤ 1 / 2 := by
  unfold roundEven
  have h1 := Int.floor_le x
  have h2 := Int.lt_floor_add_one x
  rw [abs_le]
  split_ifs with a b c <;> constructor <;> linarith

/-- C114: the channel of a rectangular fin exchanger, and the area and volume of its layers. -/
theorem C114_fin {h t s : ℝ} (ht : 0 < t) (hth : t < h) (hts : t < s) (L W n p : ℝ) (hL : 0 < L) (hW : 0 < W) (hn : 0 < n) (hp : 0 < p) :
    ∃ X, rectangularFin h t s (some L) (some W) (some n) (some p) = .ok X ∧
      X.A_channel = X.channel_height * X.channel_width ∧ X.P_channel = 2 * (X.channel_height + X.channel_width) ∧ X.Dh * X.P_channel = 4 * X.A_channel ∧
      X.Dh ≤ 2 * min X.channel_height X.channel_width ∧ X.fin_count * s = 1 ∧
      (∃ c, X.rest.layer_fin_count = some c ∧ |c - W / s| ≤ 1 / 2 ∧ (∀ k : ℕ, W = k * s → c = k) ∧
        X.rest.A_HX_layer = some (X.P_channel * L * c) ∧ X.rest.A_HX = some (n * (X.P_channel * L * c))) ∧
      X.rest.layer_thickness = some (p + h) ∧
      (∃ H, X.rest.height = some H ∧ H = n * (h + p) + p ∧ X.rest.volume = some (L * W * H) ∧ ∃ a v, X.rest.A_HX = some a ∧ X.rest.A_specific_HX = some v ∧ v * (L * W * H) = a) := by
  have hs : 0 < s := by linarith
  have hh : 0 < h := by linarith
  have hP : 0 < 2 * (s - t) + 2 * (h - t) := by linarith
  have tr : ∀ x : ℝ, 0 < x → truthy (some x) := fun x hx => ⟨x, rfl, hx.ne'⟩
  have hv : 0 < L * W * ((p + h) * n + p) := by positivity
  have hval : rectangularFin h t s (some L) (some W) (some n) (some p) = .ok
      { channel_height := h - t, channel_width := s - t, fin_count := 1 / s, blockage_ratio := (s * h - s * t - (h - t) * t) / (s * h), A_channel := (s - t) * (h - t),
        P_channel := 2 * (s - t) + 2 * (h - t), Dh := 4 * ((s - t) * (h - t)) / (2 * (s - t) + 2 * (h - t)),
        rest := { layer_thickness := some (p + h), layer_fin_count := some (roundEven (1 / s * W)), A_HX_layer := some ((2 * (s - t) + 2 * (h - t)) * L * roundEven (1 / s * W)),
                  A_HX := some (n * ((2 * (s - t) + 2 * (h - t)) * L * roundEven (1 / s * W))), height := some ((p + h) * n + p), volume := some (L * W * ((p + h) * n + p)),
                  A_specific_HX := some (n * ((2 * (s - t) + 2 * (h - t)) * L * roundEven (1 / s * W)) / (L * W * ((p + h) * n + p))) } } := by
    unfold rectangularFin
    rw [pdiv_ok hs.ne', Py.ok_bind, pdiv_ok (by positivity), Py.ok_bind]
    dsimp only
    rw [pdiv_ok hP.ne', Py.ok_bind]
    unfold overall
    simp only [tr p hp, tr L hL, tr W hW, and_self, if_true, Option.map_some, Option.getD_some]
    unfold layerTotals
    simp only [hn.ne', hp.ne', if_false]
    rw [pdiv_ok hv.ne', Py.ok_bind]
    simp only [Py.pure_eq, Py.ok_bind]
  refine ⟨_, hval, by ring, by ring, div_mul_cancel₀ _ hP.ne', ?_, by field_simp, ⟨_, rfl, ?_, ?_, rfl, rfl⟩, rfl, ⟨_, rfl, by ring, rfl, _, _, rfl, rfl, div_mul_cancel₀ _ hv.ne'⟩⟩
  · simp only
    rw [div_le_iff₀ hP]
    have h1 : 0 < h - t := by linarith
    have h2 : 0 < s - t := by linarith
    rcases le_total (h - t) (s - t) with g | g
    · rw [min_eq_left g]; nlinarith
    · rw [min_eq_right g]; nlinarith
  · rw [show W / s = 1 / s * W by ring]
    exact roundEven_near _
  · intro k hk
    have e : 1 / s * W = ((k : ℤ) : ℝ) := by rw [hk]; push_cast; field_simp
    rw [e, roundEven_int]
    push_cast; rfl

/-- C114 (finding): the "blockage ratio" of a rectangular fin exchanger, documented as the blocked fraction of a layer, is the open fraction; the blocked fraction is
the offset strip fin exchanger's `blockage_ratio_Kim`. -/
theorem C114_blockage {l h t s : ℝ} (hl : 0 < l) (ht : 0 < t) (hth : t < h) (hts : 2 * t < s) (length width layers p : Option ℝ) {X : Fin} {Y : Strip}
    (hX : rectangularFin h t s length width layers p = .ok X) (hY : offsetStrip l h t s length width layers p = .ok Y) :
    X.blockage_ratio * (s * h) = X.A_channel ∧ Y.blockage_ratio_Kim = 1 - X.A_channel / (s * h) ∧ X.blockage_ratio + Y.blockage_ratio_Kim = 1 ∧
    Y.A_channel = X.A_channel ∧ Y.P_channel = X.P_channel ∧ Y.Dh_Kays_London = X.Dh ∧ Y.Dh < Y.Dh_Kays_London ∧
    Y.blockage_ratio = 1 - (s - 2 * t) * (h - t) / (s * h) - 2 * t ^ 2 / (s * h) := by
  have hs : 0 < s := by linarith
  have hh : 0 < h := by linarith
  have h1 : 0 < h - t := by linarith
  have h2 : 0 < s - t := by linarith
  have h3 : 0 < s - 2 * t := by linarith
  have hA : 0 < 2 * (l * (h - t) + l * (s - t) + t * (h - t)) + t * (s - 2 * t) := by positivity
  unfold rectangularFin at hX
  rw [pdiv_ok hs.ne', Py.ok_bind, pdiv_ok (by positivity), Py.ok_bind] at hX
  dsimp only at hX
  rw [pdiv_ok (by positivity), Py.ok_bind] at hX
  obtain ⟨r, -, hX⟩ := Py.bind_eq_ok.1 hX
  obtain rfl := (Except.ok.inj hX).symm
  unfold offsetStrip at hY
  rw [pdiv_ok hs.ne', Py.ok_bind, pdiv_ok hh.ne', Py.ok_bind, pdiv_ok hs.ne', Py.ok_bind, pdiv_ok (by positivity), Py.ok_bind, pdiv_ok hh.ne', Py.ok_bind, pdiv_ok hl.ne', Py.ok_bind] at hY
  dsimp only at hY
  rw [pdiv_ok hA.ne', Py.ok_bind, pdiv_ok (by positivity), Py.ok_bind, pdiv_ok (by positivity), Py.ok_bind, pdiv_ok hs.ne', Py.ok_bind] at hY
  obtain ⟨r', -, hY⟩ := Py.bind_eq_ok.1 hY
  obtain rfl := (Except.ok.inj hY).symm
  simp only
  refine ⟨?_, ?_, ?_, by ring, trivial, ?_, ?_, ?_⟩
  · field_simp
  · field_simp; ring
  · field_simp; ring
  · rw [show 2 * (h - t) + 2 * (s - t) = 2 * (s - t) + 2 * (h - t) by ring]; ring
  · rw [div_lt_div_iff₀ hA (by positivity)]
    have : 0 < (h - t) * (s - t) * (2 * t * (h - t) + t * (s - 2 * t)) := by positivity
    nlinarith
  · field_simp; ring

/-! ### Air coolers -/

/-- C114: fins may be given by diameter or height, and by density or interval: the exchanger is the same. If both are given the height and the interval are not
read; if neither is given ValueError is raised. -/
theorem C114_fin_specs (rows passes : ℕ) (per_row L D t : ℝ) (angle pitch pp pn r : Option ℝ) (bays bundles : ℝ) (corbels : Bool) (wall : Option ℝ) (fh dens : ℝ) (hd : 0 < dens) :
    (∀ fd fi, airCooled rows passes per_row L D t angle pitch pp pn r none (some fh) fd fi bays bundles corbels wall =
      airCooled rows passes per_row L D t angle pitch pp pn r (some (D + 2 * fh)) none fd fi bays bundles corbels wall) ∧
    (∀ d h' fd fi, airCooled rows passes per_row L D t angle pitch pp pn r (some d) (some h') fd fi bays bundles corbels wall =
      airCooled rows passes per_row L D t angle pitch pp pn r (some d) none fd fi bays bundles corbels wall) ∧
    (∀ d h', airCooled rows passes per_row L D t angle pitch pp pn r d h' none (some (1 / dens)) bays bundles corbels wall =
      airCooled rows passes per_row L D t angle pitch pp pn r d h' (some dens) none bays bundles corbels wall) ∧
    (∀ d h' i, airCooled rows passes per_row L D t angle pitch pp pn r d h' (some dens) (some i) bays bundles corbels wall =
      airCooled rows passes per_row L D t angle pitch pp pn r d h' (some dens) none bays bundles corbels wall) ∧
    (∀ fd fi X, airCooled rows passes per_row L D t angle pitch pp pn r none none fd fi bays bundles corbels wall ≠ .ok X) ∧
    (∀ d h' X, airCooled rows passes per_row L D t angle pitch pp pn r d h' none none bays bundles corbels wall ≠ .ok X) := by
  refine ⟨fun fd fi => ?_, fun d h' fd fi => ?_, fun d h' => ?_, fun d h' i => ?_, fun fd fi X h => ?_, fun d h' X h => ?_⟩
  · have e : finSize D none (some fh) = finSize D (some (D + 2 * fh)) none := by
      simp only [finSize]
      congr 2
      ring
    simp only [airCooled, e]
  · simp only [airCooled, finSize]
  · have e : finPitch none (some (1 / dens)) = finPitch (some dens) none := by
      simp only [finPitch]
      rw [pdiv_ok (by positivity), Py.ok_bind, pdiv_ok hd.ne', Py.ok_bind, one_div_one_div]
    simp only [airCooled, e]
  · simp only [airCooled, finPitch]
  · unfold airCooled at h
    obtain ⟨p0, -, h⟩ := Py.bind_eq_ok.1 h
    obtain ⟨p, -, h⟩ := Py.bind_eq_ok.1 h
    obtain ⟨fin, hfin, -⟩ := Py.bind_eq_ok.1 h
    cases hfin
  · unfold airCooled at h
    obtain ⟨p0, -, h⟩ := Py.bind_eq_ok.1 h
    obtain ⟨p, -, h⟩ := Py.bind_eq_ok.1 h
    obtain ⟨fin, -, h⟩ := Py.bind_eq_ok.1 h
    obtain ⟨fi, hfi, -⟩ := Py.bind_eq_ok.1 h
    cases hfi

/-- C114: once the pitch and angle are settled, missing fin dimensions are ValueError, and a fin density or interval of zero is ZeroDivisionError. -/
theorem C114_fin_errors (rows passes : ℕ) (per_row L D t : ℝ) (p : ℝ) (fd fh dens fi : Option ℝ) (bays bundles : ℝ) (corbels : Bool) (wall : Option ℝ) :
    airCooled rows passes per_row L D t (some 30) (some p) none none none none none dens fi bays bundles corbels wall = .error .valueError ∧
    (∀ d, airCooled rows passes per_row L D t (some 30) (some p) none none none (some d) fh none none bays bundles corbels wall = .error .valueError) ∧
    (∀ h, airCooled rows passes per_row L D t (some 30) (some p) none none none fd (some h) none none bays bundles corbels wall = .error .valueError) ∧
    (∀ h, airCooled rows passes per_row L D t (some 30) (some p) none none none fd (some h) (some 0) fi bays bundles corbels wall = .error .zeroDivisionError) ∧
    (∀ h, airCooled rows passes per_row L D t (some 30) (some p) none none none fd (some h) none (some 0) bays bundles corbels wall = .error .zeroDivisionError) := by
  have e : ∃ q, pitch_angle_solver (some 30) (some p) none none = .ok q := by
    unfold pitch_angle_solver
    exact ⟨_, rfl⟩
  obtain ⟨q, hq⟩ := e
  refine ⟨?_, fun d => ?_, fun h => ?_, fun h => ?_, fun h => ?_⟩ <;> unfold airCooled <;> simp only [pitchFromRatio, Py.ok_bind, hq] <;> rcases fd with _ | fd <;>
    simp only [finSize, finPitch, Py.ok_bind, Py.error_bind, pdiv_zero]

/-- C114 (finding): the check of `pitch_ratio` is inverted. Given alone it raises ValueError; given together with `pitch` it silently replaces the pitch. -/
theorem C114_pitch_ratio (rows passes : ℕ) (per_row L D t : ℝ) (angle pp pn : Option ℝ) (r : ℝ) (fd fh dens fi : Option ℝ) (bays bundles : ℝ) (corbels : Bool) (wall : Option ℝ) :
    airCooled rows passes per_row L D t angle none pp pn (some r) fd fh dens fi bays bundles corbels wall = .error .valueError ∧
    ∀ p, airCooled rows passes per_row L D t angle (some p) pp pn (some r) fd fh dens fi bays bundles corbels wall =
      airCooled rows passes per_row L D t angle (some (D * r)) pp pn none fd fh dens fi bays bundles corbels wall := by
  refine ⟨?_, fun p => ?_⟩
  · simp only [airCooled, pitchFromRatio, Py.error_bind]
  · simp only [airCooled, pitchFromRatio]

/-- C114: areas, volumes and counts of an air cooler per tube, row, bundle, bay and in total fit together; the finned area exceeds the bare area by a factor that
depends on one tube only; the smallest flow area is below the face area. -/
theorem C114_air {rows passes : ℕ} {per_row L D t : ℝ} {angle pitch pp pn r fd fh dens fi : Option ℝ} {bays bundles : ℝ} {corbels : Bool} {wall : Option ℝ} {X : AirCooled}
    (h : airCooled rows passes per_row L D t angle pitch pp pn r fd fh dens fi bays bundles corbels wall = .ok X)
    (hrow : 0 < per_row) (hL : 0 < L) (hD : 0 < D) (ht : 0 < t) (hrows : 0 < rows) (hbays : 0 < bays) (hbun : 0 < bundles) :
    X.tubes = per_row * rows * bundles * bays ∧
    X.area.tube = X.showing.tube + X.fin.tube ∧ X.area.row = per_row * X.area.tube ∧ X.area.bundle = rows * X.area.row ∧ X.area.bay = bundles * X.area.bundle ∧ X.area.total = bays * X.area.bay ∧
    X.area.total = X.tubes * X.area.tube ∧ X.bare.total = X.tubes * (π * D * L) ∧ X.A_increase * X.bare.tube = X.area.tube ∧
    X.fin_interval * X.fin_density = 1 ∧ X.fin_diameter = D + 2 * X.fin_height ∧ X.bare_length = some (X.fin_interval - t) ∧
    X.pitch_ratio * D = X.pitch ∧ X.pitch_diagonal ^ 2 = X.pitch_parallel ^ 2 + (X.pitch_normal / 2) ^ 2 ∧
    (0 ≤ X.fin_height → 0 < X.fin_density → 1 ≤ X.A_increase) ∧
    X.A_min = min X.A_diagonal_per_bundle X.A_normal_per_bundle * bundles * bays ∧
    (0 ≤ X.fin_height → 0 < X.fin_density → 0 < X.pitch_normal → X.A_min < X.A_face ∧ X.flow_area_contraction_ratio < 1) ∧
    (passes ∣ rows → X.channels * passes = per_row * rows) ∧ (¬ passes ∣ rows → X.channels = per_row) ∧
    (wall = none → X.flow = none ∧ X.volume = none) ∧
    (∀ w, wall = some w → ∃ d v f, X.Di = some d ∧ d = D - 2 * w ∧ X.volume = some v ∧ X.flow = some f ∧ v.total = X.tubes * (π / 4 * d ^ 2 * L) ∧ f.total = X.tubes * (π / 4 * d ^ 2)) := by
  unfold airCooled at h
  obtain ⟨p0, -, h⟩ := Py.bind_eq_ok.1 h
  obtain ⟨p, -, h⟩ := Py.bind_eq_ok.1 h
  obtain ⟨fin, hfin, h⟩ := Py.bind_eq_ok.1 h
  obtain ⟨fip, hfi, h⟩ := Py.bind_eq_ok.1 h
  have hf : fin.2 = D + 2 * fin.1 := by
    cases fd with
    | some d =>
      simp only [finSize] at hfin
      rw [← Except.ok.inj hfin]; ring
    | none =>
      cases fh with
      | none => simp only [finSize] at hfin; cases hfin
      | some x => simp only [finSize] at hfin; rw [← Except.ok.inj hfin]
  have hi : fip.1 * fip.2 = 1 := by
    cases dens with
    | some d =>
      simp only [finPitch] at hfi
      obtain ⟨i, hi, hfi⟩ := Py.bind_eq_ok.1 hfi
      have hd : d ≠ 0 := by rintro rfl; rw [pdiv_zero] at hi; cases hi
      rw [pdiv_ok hd] at hi
      rw [← Except.ok.inj hfi, ← Except.ok.inj hi]
      exact one_div_mul_cancel hd
    | none =>
      cases fi with
      | none => simp only [finPitch] at hfi; cases hfi
      | some i =>
        simp only [finPitch] at hfi
        obtain ⟨d, hd, hfi⟩ := Py.bind_eq_ok.1 hfi
        have hi : i ≠ 0 := by rintro rfl; rw [pdiv_zero] at hd; cases hd
        rw [pdiv_ok hi] at hd
        rw [← Except.ok.inj hfi, ← Except.ok.inj hd]
        exact mul_one_div_cancel hi
  have hpi := pi_pos
  have hi0 : fip.1 ≠ 0 := left_ne_zero_of_mul_eq_one hi
  have hfrac : t / fip.1 = t * fip.2 := by
    rw [div_eq_iff hi0, mul_assoc, mul_comm fip.2, hi, mul_one]
  have hR : (0 : ℝ) < rows := by exact_mod_cast hrows
  have hT : 0 < per_row * rows * bundles * bays := by positivity
  unfold airBuild at h
  rw [pdiv_ok hD.ne', Py.ok_bind, psqrt_ok (by positivity), Py.ok_bind, pdiv_ok hi0, Py.ok_bind] at h
  dsimp only [levels] at h
  rw [pdiv_ok (by positivity), Py.ok_bind] at h
  obtain ⟨ratio, hratio, h⟩ := Py.bind_eq_ok.1 h
  obtain ⟨ch, hch, h⟩ := Py.bind_eq_ok.1 h
  obtain rfl := (Except.ok.inj h).symm
  simp only
  set inc : ℝ := (π * D * L * (1 - t / fip.1) * (per_row * rows * bundles * bays) + fip.2 * L * (2 * π / 4 * (fin.2 ^ 2 - D ^ 2) + π * fin.2 * t) * (per_row * rows * bundles * bays)) /
    (π * D * L * (per_row * rows * bundles * bays)) with hinc
  have hincr : inc * (π * D * L) = π * D * L * (1 - t / fip.1) + fip.2 * L * (2 * π / 4 * (fin.2 ^ 2 - D ^ 2) + π * fin.2 * t) := by
    rw [hinc, ← add_mul, mul_div_mul_right _ _ hT.ne', div_mul_cancel₀ _ (by positivity)]
  have hsq : √(p.2.2.1 ^ 2 + (0.5 * p.2.2.2) ^ 2) ^ 2 = p.2.2.1 ^ 2 + (p.2.2.2 / 2) ^ 2 := by
    rw [Real.sq_sqrt (by positivity)]; ring
  refine ⟨trivial, trivial, by ring, by ring, by ring, by ring, by ring, by ring, hincr, hi, hf, if_pos hi0, div_mul_cancel₀ _ hD.ne', hsq, ?_, trivial, ?_, ?_, ?_, ?_, ?_⟩
  · intro h0 hd
    have hx : 0 < π * D * L := by positivity
    have key : π * D * L ≤ inc * (π * D * L) := by
      rw [hincr, hfrac, hf]
      have : 0 ≤ π * L * fip.2 * (fin.1 * (2 * D + 2 * fin.1) + 2 * fin.1 * t) := by positivity
      nlinarith
    nlinarith
  · intro h0 hd hpn
    have hface : 0 < p.2.2.2 * L * (per_row + if corbels then 0.5 else 1) := by
      have : (0 : ℝ) < if corbels then (0.5 : ℝ) else 1 := by split_ifs <;> norm_num
      positivity
    have hmin : min (2 * per_row * L * (√(p.2.2.1 ^ 2 + (0.5 * p.2.2.2) ^ 2) - D - 2 * fip.2 * fin.1 * t)) (per_row * L * (p.2.2.2 - D - 2 * fip.2 * fin.1 * t)) <
        p.2.2.2 * L * (per_row + if corbels then 0.5 else 1) := by
      refine lt_of_le_of_lt (min_le_right _ _) ?_
      have h1 : 0 ≤ per_row * L * (2 * fip.2 * fin.1 * t) := by positivity
      have h2 : 0 < per_row * L * D := by positivity
      have h3 : (0 : ℝ) < if corbels then (0.5 : ℝ) else 1 := by split_ifs <;> norm_num
      have h4 := mul_pos (mul_pos hpn hL) h3
      nlinarith
    have hlt := mul_lt_mul_of_pos_right (mul_lt_mul_of_pos_right hmin hbun) hbays
    refine ⟨hlt, ?_⟩
    have hfp : 0 < p.2.2.2 * L * (per_row + if corbels then 0.5 else 1) * bundles * bays := by positivity
    rw [pdiv_ok hfp.ne'] at hratio
    rw [← Except.ok.inj hratio, div_lt_one hfp]
    exact hlt
  · intro hdvd
    by_cases hp : passes = 0
    · rw [if_pos hp] at hch; cases hch
    · rw [if_neg hp, if_pos (Nat.mod_eq_zero_of_dvd hdvd)] at hch
      have : (passes : ℝ) ≠ 0 := by exact_mod_cast hp
      rw [← Except.ok.inj hch, div_mul_cancel₀ _ this]
  · intro hdvd
    by_cases hp : passes = 0
    · rw [if_pos hp] at hch; cases hch
    · rw [if_neg hp, if_neg (fun h => hdvd (Nat.dvd_of_mod_eq_zero h))] at hch
      exact (Except.ok.inj hch).symm
  · rintro rfl; exact ⟨rfl, rfl⟩
  · rintro w rfl
    refine ⟨_, _, _, rfl, by ring, rfl, rfl, by ring, by ring⟩

example : ∃ X, airCooled 4 2 10 3 (1 / 10) (1 / 1000) (some 30) (some (1 / 5)) none none none none (some (1 / 20)) (some 100) none 2 3 false (some (1 / 100)) = .ok X ∧ X.tubes = 240 ∧
    X.channels * 2 = 40 ∧ 1 ≤ X.A_increase := by
  have hb : ∃ X, airCooled 4 2 10 3 (1 / 10) (1 / 1000) (some 30) (some (1 / 5)) none none none none (some (1 / 20)) (some 100) none 2 3 false (some (1 / 100)) = .ok X ∧
      X.fin_height = 1 / 20 ∧ X.fin_density = 100 := by
    have hs : 0 < sin (30 * (π / 180)) := sin_pos_of_pos_of_lt_pi (by positivity) (by linarith [pi_pos])
    simp only [airCooled, pitchFromRatio, pitch_angle_solver, finSize, finPitch, Py.ok_bind]
    rw [pdiv_ok (by norm_num), Py.ok_bind, Py.pure_eq, Py.ok_bind]
    unfold airBuild
    have hp := pi_pos
    simp only [levels]
    rw [pdiv_ok (by norm_num), Py.ok_bind, psqrt_ok (by positivity), Py.ok_bind, pdiv_ok (by norm_num), Py.ok_bind, pdiv_ok (by positivity), Py.ok_bind, pdiv_ok (by
      simp only [Bool.false_eq_true, if_false]; positivity), Py.ok_bind]
    simp only [OfNat.ofNat_ne_zero, if_false, Nat.reduceMod, if_true, Py.ok_bind]
    exact ⟨_, rfl, rfl, rfl⟩
  obtain ⟨X, hX, h1, h2⟩ := hb
  obtain ⟨a, -, -, -, -, -, -, -, -, -, -, -, -, -, b, -, -, c, -⟩ := C114_air hX (by norm_num) (by norm_num) (by norm_num) (by norm_num) (by norm_num) (by norm_num) (by norm_num)
  refine ⟨X, hX, ?_, ?_, b (by rw [h1]; norm_num) (by rw [h2]; norm_num)⟩
  · rw [a]; norm_num
  · have := c ⟨2, rfl⟩
    norm_num at this ⊢
    exact this

end Verif.Exchangers
