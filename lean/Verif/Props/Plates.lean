import Verif.Model.Plates
import Mathlib.Analysis.Complex.ExponentialBounds
import Mathlib.Tactic

/-! C118: friction in plate exchangers. -/

namespace Verif.Plates
open Verif Real

/-! ### Martin's equation -/

/-- the friction factor whose inverse square root is the weighted mean of those of `P` and `Q` -/
noncomputable def blend (c P Q : ℝ) : ℝ := 1 / (c / √P + (1 - c) / √Q) ^ 2

lemma blend_den {c P Q : ℝ} (h0 : 0 < c) (h1 : c ≤ 1) (hP : 0 < P) (hQ : 0 < Q) : 0 < c / √P + (1 - c) / √Q := by
  have : 0 ≤ (1 - c) / √Q := div_nonneg (by linarith) (Real.sqrt_nonneg _)
  have : 0 < c / √P := div_pos h0 (Real.sqrt_pos.2 hP)
  linarith

lemma blend_mono {c P Q P' Q' : ℝ} (h0 : 0 < c) (h1 : c ≤ 1) (hP : 0 < P) (hQ : 0 < Q) (hPP : P ≤ P') (hQQ : Q ≤ Q') : blend c P Q ≤ blend c P' Q' := by
  have hd := blend_den h0 h1 (hP.trans_le hPP) (hQ.trans_le hQQ)
  have hc : 0 ≤ 1 - c := by linarith
  unfold blend
  have e1 : c / √P' ≤ c / √P := div_le_div_of_nonneg_left h0.le (Real.sqrt_pos.2 hP) (Real.sqrt_le_sqrt hPP)
  have e2 : (1 - c) / √Q' ≤ (1 - c) / √Q := div_le_div_of_nonneg_left hc (Real.sqrt_pos.2 hQ) (Real.sqrt_le_sqrt hQQ)
  apply one_div_le_one_div_of_le (by positivity)
  exact pow_le_pow_left₀ hd.le (by linarith) 2

lemma blend_self {c m : ℝ} (hm : 0 < m) : blend c m m = m := by
  unfold blend
  rw [← add_div, show c + (1 - c) = 1 by ring, div_pow, Real.sq_sqrt hm.le]
  field_simp

lemma blend_scale {c P Q k : ℝ} (hk : 0 < k) (hP : 0 < P) (hQ : 0 < Q) : blend c (k * P) (k * Q) = k * blend c P Q := by
  unfold blend
  rw [Real.sqrt_mul hk.le, Real.sqrt_mul hk.le]
  have a := Real.sqrt_pos.2 hP
  have b := Real.sqrt_pos.2 hQ
  have d := Real.sqrt_pos.2 hk
  rw [show c / (√k * √P) + (1 - c) / (√k * √Q) = (c / √P + (1 - c) / √Q) / √k by field_simp, div_pow, Real.sq_sqrt hk.le]
  rw [one_div_div, mul_one_div]

lemma blend_pos {c P Q : ℝ} (h0 : 0 < c) (h1 : c ≤ 1) (hP : 0 < P) (hQ : 0 < Q) : 0 < blend c P Q := by
  have := blend_den h0 h1 hP hQ
  unfold blend
  positivity

lemma martin_ok {a b c f0 f1 phi : ℝ} (ha : 0 < a) (hb : 0 ≤ b) (hc : 0 ≤ c) (h0 : 0 < f0) (h1 : 0 < f1) (hp : 0 ≤ phi) (hp' : phi < π / 2) :
    0 < b * Real.tan phi + c * Real.sin phi + f0 / Real.cos phi ∧ 0 < Real.cos phi ∧ Real.cos phi ≤ 1 ∧
    martin a b c f0 f1 phi = .ok (blend (Real.cos phi) (b * Real.tan phi + c * Real.sin phi + f0 / Real.cos phi) (a * f1)) := by
  have hcos : 0 < Real.cos phi := Real.cos_pos_of_mem_Ioo ⟨by linarith [pi_pos], hp'⟩
  have hsin : 0 ≤ Real.sin phi := Real.sin_nonneg_of_nonneg_of_le_pi hp (by linarith [pi_pos])
  have htan : 0 ≤ Real.tan phi := by rw [Real.tan_eq_sin_div_cos]; positivity
  have hP : 0 < b * Real.tan phi + c * Real.sin phi + f0 / Real.cos phi := by positivity
  have hQ : 0 < a * f1 := by positivity
  refine ⟨hP, hcos, Real.cos_le_one _, ?_⟩
  have hd := blend_den hcos (Real.cos_le_one _) hP hQ
  unfold martin
  rw [pdiv_ok hcos.ne', Py.ok_bind, psqrt_ok hP.le, Py.ok_bind, pdiv_ok (Real.sqrt_pos.2 hP).ne', Py.ok_bind, psqrt_ok hQ.le, Py.ok_bind, pdiv_ok (Real.sqrt_pos.2 hQ).ne', Py.ok_bind,
    mul_one, mul_one, ppow_ok hd]
  unfold blend
  rw [Real.rpow_neg hd.le, one_div]
  congr 2
  exact Real.rpow_two _

/-- the smooth-channel factor of the VDI form: 64/Re below 2000, the Konakov law above -/
noncomputable def smoothVDI (Re : ℝ) : ℝ := if Re < 2000 then 64 / Re else 1 / (1.8 * (Real.log Re / Real.log 10) - 1.5) ^ 2
/-- the longitudinal wavy factor of the VDI form -/
noncomputable def wavyVDI (Re : ℝ) : ℝ := if Re < 2000 then 597 / Re + 3.85 else 39 * Re ^ (-0.289 : ℝ)
/-- the same of the 1999 form, as Darcy factors -/
noncomputable def smooth1999 (Re : ℝ) : ℝ := if Re < 2000 then 64 / Re else 4 / (1.56 * Real.log Re - 3) ^ 2
noncomputable def wavy1999 (Re : ℝ) : ℝ := if Re < 2000 then 596 / Re + 3.85 else 39 * Re ^ (-0.289 : ℝ)

/-- the crossing-flow factor at an angle -/
noncomputable def crossing (f0 phi : ℝ) : ℝ := 0.18 * Real.tan phi + 0.36 * Real.sin phi + f0 / Real.cos phi

lemma log2000 {Re : ℝ} (h : 2000 ≤ Re) : 2 < Real.log Re ∧ 3 ≤ Real.log Re / Real.log 10 := by
  have h0 : 0 < Re := by linarith
  constructor
  · rw [Real.lt_log_iff_exp_lt h0]
    have := Real.exp_one_lt_three
    rw [show (2 : ℝ) = 1 + 1 by norm_num, Real.exp_add]
    nlinarith [Real.exp_pos 1]
  · rw [le_div_iff₀ (Real.log_pos (by norm_num)), ← Real.log_rpow (by norm_num)]
    exact Real.log_le_log (by positivity) (by norm_num; linarith)

lemma ppow_neg_two {x : ℝ} (h : 0 < x) : ppow x (-2) = .ok (1 / x ^ 2) := by
  rw [ppow_ok h, Real.rpow_neg h.le, one_div]
  congr 2
  exact Real.rpow_two _

lemma factorsVDI {Re : ℝ} (h : 0 < Re) : martinFactorsVDI Re = .ok (smoothVDI Re, wavyVDI Re) ∧ 0 < smoothVDI Re ∧ 0 < wavyVDI Re := by
  unfold martinFactorsVDI smoothVDI wavyVDI
  by_cases hR : Re < 2000
  · simp only [if_pos hR, pdiv_ok h.ne', Py.ok_bind, Py.pure_eq, true_and]
    constructor <;> positivity
  · have hl := log2000 (not_lt.1 hR)
    have hp : 0 < 1.8 * (Real.log Re / Real.log 10) - 1.5 := by linarith [hl.2]
    simp only [if_neg hR, plog10_ok h, Py.ok_bind, ppow_neg_two hp, ppow_ok h, Py.pure_eq, true_and]
    constructor <;> positivity

lemma factors1999 {Re : ℝ} (h : 0 < Re) : martinFactors1999 Re = .ok (smooth1999 Re / 4, wavy1999 Re / 4) ∧ 0 < smooth1999 Re ∧ 0 < wavy1999 Re := by
  unfold martinFactors1999 smooth1999 wavy1999
  by_cases hR : Re < 2000
  · simp only [if_pos hR, pdiv_ok h.ne', Py.ok_bind, Py.pure_eq]
    refine ⟨?_, by positivity, by positivity⟩
    congr 2 <;> ring
  · have hl := log2000 (not_lt.1 hR)
    have hp : 0 < 1.56 * Real.log Re - 3 := by linarith [hl.1]
    simp only [if_neg hR, plog_ok h, Py.ok_bind, ppow_neg_two hp, ppow_ok h, Py.pure_eq]
    refine ⟨?_, by positivity, by positivity⟩
    congr 2 <;> ring

lemma vdi_val {Re ang : ℝ} (h : 0 < Re) (ha : 0 ≤ ang) (ha' : ang < 90) :
    0 < crossing (smoothVDI Re) (ang * (π / 180)) ∧ 0 < Real.cos (ang * (π / 180)) ∧
    friction_plate_Martin_VDI Re ang = .ok (blend (Real.cos (ang * (π / 180))) (crossing (smoothVDI Re) (ang * (π / 180))) (3.8 * wavyVDI Re)) := by
  obtain ⟨e, h0, h1⟩ := factorsVDI h
  obtain ⟨hP, hc, -, hv⟩ := martin_ok (a := 3.8) (b := 0.18) (c := 0.36) (phi := ang * (π / 180)) (by norm_num) (by norm_num) (by norm_num) h0 h1 (by have := pi_pos; positivity)
    (by nlinarith [pi_pos])
  refine ⟨hP, hc, ?_⟩
  unfold friction_plate_Martin_VDI
  simp only [e, Py.ok_bind, hv]
  rfl

lemma m1999_val {Re ang : ℝ} (h : 0 < Re) (ha : 0 ≤ ang) (ha' : ang < 90) :
    0 < crossing (smooth1999 Re) (ang * (π / 180)) ∧ 0 < Real.cos (ang * (π / 180)) ∧
    friction_plate_Martin_1999 Re ang = .ok (blend (Real.cos (ang * (π / 180))) (crossing (smooth1999 Re) (ang * (π / 180))) (3.8 * wavy1999 Re)) := by
  obtain ⟨e, h0, h1⟩ := factors1999 h
  obtain ⟨hP, hc, -, hv⟩ := martin_ok (a := 3.8) (b := 0.045) (c := 0.09) (f0 := smooth1999 Re / 4) (f1 := wavy1999 Re / 4) (phi := ang * (π / 180)) (by norm_num) (by norm_num) (by norm_num)
    (by positivity) (by positivity) (by have := pi_pos; positivity) (by nlinarith [pi_pos])
  have eP : crossing (smooth1999 Re) (ang * (π / 180)) = 4 * (0.045 * Real.tan (ang * (π / 180)) + 0.09 * Real.sin (ang * (π / 180)) + smooth1999 Re / 4 / Real.cos (ang * (π / 180))) := by
    unfold crossing; ring
  refine ⟨by rw [eP]; positivity, hc, ?_⟩
  unfold friction_plate_Martin_1999
  simp only [e, Py.ok_bind, hv, Py.pure_eq]
  rw [eP, show 3.8 * wavy1999 Re = 4 * (3.8 * (wavy1999 Re / 4)) by ring, blend_scale (by norm_num) hP (by positivity), mul_comm]

/-- C118: Martin's friction factor, in both forms: for every positive Reynolds number and angle below 90° its inverse square root is the mean of those of the crossing-flow and the wavy-flow factor
with weights cos φ and 1 − cos φ, so it lies between the two. -/
theorem C118_martin {Re ang : ℝ} (h : 0 < Re) (ha : 0 ≤ ang) (ha' : ang < 90) :
    (∃ f > 0, friction_plate_Martin_VDI Re ang = .ok f ∧
      1 / √f = Real.cos (ang * (π / 180)) / √(crossing (smoothVDI Re) (ang * (π / 180))) + (1 - Real.cos (ang * (π / 180))) / √(3.8 * wavyVDI Re) ∧
      min (crossing (smoothVDI Re) (ang * (π / 180))) (3.8 * wavyVDI Re) ≤ f ∧ f ≤ max (crossing (smoothVDI Re) (ang * (π / 180))) (3.8 * wavyVDI Re)) ∧
    (∃ f > 0, friction_plate_Martin_1999 Re ang = .ok f ∧
      1 / √f = Real.cos (ang * (π / 180)) / √(crossing (smooth1999 Re) (ang * (π / 180))) + (1 - Real.cos (ang * (π / 180))) / √(3.8 * wavy1999 Re) ∧
      min (crossing (smooth1999 Re) (ang * (π / 180))) (3.8 * wavy1999 Re) ≤ f ∧ f ≤ max (crossing (smooth1999 Re) (ang * (π / 180))) (3.8 * wavy1999 Re)) := by
  have gen : ∀ c P Q : ℝ, 0 < c → c ≤ 1 → 0 < P → 0 < Q → 0 < blend c P Q ∧ 1 / √(blend c P Q) = c / √P + (1 - c) / √Q ∧ min P Q ≤ blend c P Q ∧ blend c P Q ≤ max P Q := by
    intro c P Q h0 h1 hP hQ
    have hm : 0 < min P Q := lt_min hP hQ
    refine ⟨blend_pos h0 h1 hP hQ, ?_, ?_, ?_⟩
    · have hd := blend_den h0 h1 hP hQ
      unfold blend
      rw [Real.sqrt_div (by norm_num), Real.sqrt_sq hd.le, Real.sqrt_one, one_div_one_div]
    · calc min P Q = blend c (min P Q) (min P Q) := (blend_self hm).symm
        _ ≤ _ := blend_mono h0 h1 hm hm (min_le_left _ _) (min_le_right _ _)
    · calc blend c P Q ≤ blend c (max P Q) (max P Q) := blend_mono h0 h1 hP hQ (le_max_left _ _) (le_max_right _ _)
        _ = _ := blend_self (lt_max_of_lt_left hP)
  constructor
  · obtain ⟨hP, hc, hv⟩ := vdi_val h ha ha'
    obtain ⟨a, b, c, d⟩ := gen _ _ _ hc (Real.cos_le_one _) hP (show 0 < 3.8 * wavyVDI Re by have := (factorsVDI h).2.2; positivity)
    exact ⟨_, a, hv, b, c, d⟩
  · obtain ⟨hP, hc, hv⟩ := m1999_val h ha ha'
    obtain ⟨a, b, c, d⟩ := gen _ _ _ hc (Real.cos_le_one _) hP (show 0 < 3.8 * wavy1999 Re by have := (factors1999 h).2.2; positivity)
    exact ⟨_, a, hv, b, c, d⟩

lemma crossing_mono {f g phi : ℝ} (hc : 0 < Real.cos phi) (h : f ≤ g) : crossing f phi ≤ crossing g phi := by
  unfold crossing
  gcongr

/-- C118: without corrugation angle both forms give the smooth channel, 64/Re in laminar flow; in laminar flow the two forms differ by less than 0.17 %, the VDI one being larger, and both decrease
with the Reynolds number. -/
theorem C118_martin_forms {Re Re' ang f g f' g' : ℝ} (h : 0 < Re) (ha : 0 ≤ ang) (ha' : ang < 90)
    (hf : friction_plate_Martin_VDI Re ang = .ok f) (hg : friction_plate_Martin_1999 Re ang = .ok g) :
    (ang = 0 → f = smoothVDI Re ∧ g = smooth1999 Re ∧ (Re < 2000 → f = 64 / Re ∧ g = 64 / Re)) ∧
    (Re < 2000 → g ≤ f ∧ f ≤ 597 / 596 * g) ∧
    (Re ≤ Re' → Re' < 2000 → friction_plate_Martin_VDI Re' ang = .ok f' → friction_plate_Martin_1999 Re' ang = .ok g' → f' ≤ f ∧ g' ≤ g) := by
  obtain ⟨hP, hc, hv⟩ := vdi_val h ha ha'
  obtain ⟨hP', -, hv'⟩ := m1999_val h ha ha'
  have hw := (factorsVDI h).2.2
  have hw' := (factors1999 h).2.2
  rw [hv] at hf
  rw [hv'] at hg
  have hf := Except.ok.inj hf
  have hg := Except.ok.inj hg
  refine ⟨fun h0 => ?_, fun hR => ?_, fun hRR hR' e1 e2 => ?_⟩
  · subst h0
    have e : ∀ s w : ℝ, 0 < s → blend (Real.cos (0 * (π / 180))) (crossing s (0 * (π / 180))) w = s := by
      intro s w hs
      unfold blend crossing
      simp only [zero_mul, Real.cos_zero, Real.tan_zero, Real.sin_zero, mul_zero, zero_add, div_one, sub_self, zero_div, add_zero]
      rw [div_pow, Real.sq_sqrt hs.le]
      field_simp
    rw [e _ _ (factorsVDI h).2.1] at hf
    rw [e _ _ (factors1999 h).2.1] at hg
    refine ⟨hf.symm, hg.symm, fun hR => ⟨?_, ?_⟩⟩
    · rw [← hf, smoothVDI, if_pos hR]
    · rw [← hg, smooth1999, if_pos hR]
  · have es : smoothVDI Re = smooth1999 Re := by unfold smoothVDI smooth1999; rw [if_pos hR, if_pos hR]
    have ew : wavy1999 Re = 596 / Re + 3.85 := if_pos hR
    have ew' : wavyVDI Re = 597 / Re + 3.85 := if_pos hR
    rw [← hf, ← hg, es]
    rw [es] at hP
    constructor
    · exact blend_mono hc (Real.cos_le_one _) hP (by positivity) le_rfl (by rw [ew, ew']; have : 596 / Re ≤ 597 / Re := (by gcongr; norm_num); linarith)
    · rw [← blend_scale (by norm_num) hP (by positivity)]
      refine blend_mono hc (Real.cos_le_one _) hP (by positivity) (by linarith) ?_
      rw [ew, ew', show (597 : ℝ) / Re = 597 / 596 * (596 / Re) by ring]
      have : 0 < 596 / Re := by positivity
      linarith
  · have h' : 0 < Re' := by linarith
    have hR : Re < 2000 := by linarith
    obtain ⟨gP, -, gv⟩ := vdi_val h' ha ha'
    obtain ⟨gP', -, gv'⟩ := m1999_val h' ha ha'
    have gw := (factorsVDI h').2.2
    have gw' := (factors1999 h').2.2
    rw [gv] at e1
    rw [gv'] at e2
    rw [← hf, ← hg, ← Except.ok.inj e1, ← Except.ok.inj e2]
    have d : ∀ k : ℝ, 0 ≤ k → k / Re' ≤ k / Re := fun k hk => div_le_div_of_nonneg_left hk h hRR
    constructor
    · refine blend_mono hc (Real.cos_le_one _) gP (by positivity) (crossing_mono hc ?_) ?_
      · unfold smoothVDI; rw [if_pos hR, if_pos hR']; exact d _ (by norm_num)
      · unfold wavyVDI; rw [if_pos hR, if_pos hR']; linarith [d 597 (by norm_num)]
    · refine blend_mono hc (Real.cos_le_one _) gP' (by positivity) (crossing_mono hc ?_) ?_
      · unfold smooth1999; rw [if_pos hR, if_pos hR']; exact d _ (by norm_num)
      · unfold wavy1999; rw [if_pos hR, if_pos hR']; linarith [d 596 (by norm_num)]

/-- C118: at no flow both forms raise a division by zero. -/
theorem C118_martin_zero (ang : ℝ) : friction_plate_Martin_VDI 0 ang = .error .zeroDivisionError ∧ friction_plate_Martin_1999 0 ang = .error .zeroDivisionError := by
  constructor
  · simp [friction_plate_Martin_VDI, martinFactorsVDI]
  · simp [friction_plate_Martin_1999, martinFactors1999]

example : ∃ f g, friction_plate_Martin_VDI 1500 45 = .ok f ∧ friction_plate_Martin_1999 1500 45 = .ok g ∧ g ≤ f ∧ f ≤ 597 / 596 * g := by
  obtain ⟨⟨f, -, hf, -⟩, g, -, hg, -⟩ := C118_martin (Re := 1500) (ang := 45) (by norm_num) (by norm_num) (by norm_num)
  exact ⟨f, g, hf, hg, (C118_martin_forms (Re' := 1500) (f' := f) (g' := g) (by norm_num) (by norm_num) (by norm_num) hf hg).2.1 (by norm_num)⟩

/-! ### Kumar -/

/-- one row of Kumar's table: three power laws on ranges ended by `R1` and `R2` -/
noncomputable def pieces (R1 R2 c1 c2 c3 p2 p3 Re : ℝ) : ℝ := if Re ≤ R1 then 4 * c1 / Re else if Re ≤ R2 then 4 * c2 * Re ^ (-p2) else 4 * c3 * Re ^ (-p3)

/-- Kumar's table as published -/
noncomputable def kumarSpec (Re ang : ℝ) : ℝ :=
  if ang ≤ 30 then pieces 10 100 50 19.40 2.990 0.589 0.183 Re
  else if ang ≤ 45 then pieces 15 300 47 18.29 1.441 0.652 0.206 Re
  else if ang ≤ 50 then pieces 20 300 34 11.25 0.772 0.631 0.161 Re
  else if ang ≤ 60 then pieces 40 400 24 3.24 0.760 0.457 0.215 Re
  else pieces 50 500 24 2.80 0.639 0.451 0.213 Re

lemma kumar_val {Re : ℝ} (h : 0 < Re) (ang : ℝ) : friction_plate_Kumar Re ang = .ok (kumarSpec Re ang) := by
  have pk : ∀ (R1 R2 c1 c2 c3 p2 p3 : ℚ), (do
      let k ← kumarPick Re [R1, R2] [c1, c2, c3] [1, p2, p3]
      let q ← ppow Re (-(k.2 : ℝ))
      return 4 * (k.1 : ℝ) * q : Py ℝ) = .ok (pieces R1 R2 c1 c2 c3 p2 p3 Re) := by
    intro R1 R2 c1 c2 c3 p2 p3
    unfold pieces
    by_cases a : Re ≤ (R1 : ℝ)
    · simp only [kumarPick, if_pos a, Py.ok_bind, ppow_ok h, Py.pure_eq]
      rw [Rat.cast_one, Real.rpow_neg_one, div_eq_mul_inv]
    · by_cases b : Re ≤ (R2 : ℝ)
      · simp only [kumarPick, if_neg a, if_pos b, Py.ok_bind, ppow_ok h, Py.pure_eq]
      · simp only [kumarPick, if_neg a, if_neg b, Py.ok_bind, ppow_ok h, Py.pure_eq, List.getLastD_cons, List.getLastD_nil]
  unfold friction_plate_Kumar kumarRows kumarSpec
  by_cases a : ang ≤ 30
  · simp only [kumarRow, if_pos a, Rat.cast_ofNat, Py.ok_bind, pk]
    norm_num
  by_cases b : ang ≤ 45
  · simp only [kumarRow, if_neg a, if_pos b, Rat.cast_ofNat, Py.ok_bind, pk]
    norm_num
  by_cases c : ang ≤ 50
  · simp only [kumarRow, if_neg a, if_neg b, if_pos c, Rat.cast_ofNat, Py.ok_bind, pk]
    norm_num
  by_cases d : ang ≤ 60
  · simp only [kumarRow, if_neg a, if_neg b, if_neg c, if_pos d, Rat.cast_ofNat, Py.ok_bind, pk]
    norm_num
  · simp only [kumarRow, if_neg a, if_neg b, if_neg c, if_neg d, Rat.cast_ofNat, Py.ok_bind, pk]
    norm_num

lemma rpow_le_of_pow {x y : ℝ} (hx : 0 ≤ x) (hy : 0 ≤ y) (n m : ℕ) (hm : m ≠ 0) (h : x ^ n ≤ y ^ m) : x ^ ((n : ℝ) / m) ≤ y := by
  rw [div_eq_mul_inv, Real.rpow_mul hx, Real.rpow_natCast]
  calc (x ^ n) ^ ((m : ℝ)⁻¹) ≤ (y ^ m) ^ ((m : ℝ)⁻¹) := Real.rpow_le_rpow (by positivity) h (by positivity)
    _ = y := Real.pow_rpow_inv_natCast hy hm

lemma pieces_mono {R1 R2 c1 c2 c3 p2 p3 l1 l2 Re Re' : ℝ} (h1 : 0 < c1) (h2 : 0 < c2) (h3 : 0 < c3) (hp2 : 0 ≤ p2) (hp3 : 0 ≤ p3) (hR1 : 0 < R1) (hR2 : R1 ≤ R2)
    (hl1 : 1 ≤ l1) (hl2 : 1 ≤ l2) (hl : l1 * l2 ≤ 1.003) (j1 : c2 * R1 ^ (-p2) ≤ l1 * (c1 / R1)) (j2 : c3 * R2 ^ (-p3) ≤ l2 * (c2 * R2 ^ (-p2))) (h : 0 < Re) (hRR : Re ≤ Re') :
    0 < pieces R1 R2 c1 c2 c3 p2 p3 Re ∧ pieces R1 R2 c1 c2 c3 p2 p3 Re' ≤ 1.003 * pieces R1 R2 c1 c2 c3 p2 p3 Re ∧
    ((Re' ≤ R1 ∨ (R1 < Re ∧ Re' ≤ R2) ∨ R2 < Re) → pieces R1 R2 c1 c2 c3 p2 p3 Re' ≤ pieces R1 R2 c1 c2 c3 p2 p3 Re) := by
  have h' : 0 < Re' := h.trans_le hRR
  have hR2' : 0 < R2 := hR1.trans_le hR2
  have mono : ∀ p : ℝ, 0 ≤ p → ∀ x y : ℝ, 0 < x → x ≤ y → y ^ (-p) ≤ x ^ (-p) := fun p hp x y hx hxy => Real.rpow_le_rpow_of_nonpos hx hxy (by linarith)
  have pos : ∀ p x : ℝ, 0 < x → 0 < x ^ (-p) := fun p x hx => Real.rpow_pos_of_pos hx _
  have d1 : c1 / Re' ≤ c1 / Re := div_le_div_of_nonneg_left h1.le h hRR
  have b1 : 0 < c1 / Re := by positivity
  have hP : 0 < pieces R1 R2 c1 c2 c3 p2 p3 Re := by
    have := pos p2 Re h
    have := pos p3 Re h
    unfold pieces
    split_ifs <;> positivity
  have same : (Re' ≤ R1 ∨ (R1 < Re ∧ Re' ≤ R2) ∨ R2 < Re) → pieces R1 R2 c1 c2 c3 p2 p3 Re' ≤ pieces R1 R2 c1 c2 c3 p2 p3 Re := by
    rintro (a | ⟨a, b⟩ | a)
    · unfold pieces
      rw [if_pos a, if_pos (hRR.trans a), mul_div_assoc, mul_div_assoc]
      linarith
    · unfold pieces
      rw [if_neg (by linarith), if_pos b, if_neg (by linarith), if_pos (hRR.trans b)]
      have := mono p2 hp2 Re Re' h hRR
      gcongr
    · unfold pieces
      rw [if_neg (by linarith), if_neg (by linarith), if_neg (by linarith), if_neg (by linarith)]
      have := mono p3 hp3 Re Re' h hRR
      gcongr
  refine ⟨hP, ?_, same⟩
  -- value just above a break against just below
  by_cases s : (Re' ≤ R1 ∨ (R1 < Re ∧ Re' ≤ R2) ∨ R2 < Re)
  · have := same s
    linarith
  push Not at s
  obtain ⟨s1, s2, s3⟩ := s
  unfold pieces
  rw [if_neg (not_le.2 s1)]
  have l1' : l1 ≤ 1.003 := le_trans (le_mul_of_one_le_right (by linarith) hl2) hl
  have l2' : l2 ≤ 1.003 := le_trans (le_mul_of_one_le_left (by linarith) hl1) hl
  have q2 := mono p2 hp2 R1 R2 hR1 hR2
  by_cases a : Re ≤ R1
  · have e1 : c1 / R1 ≤ c1 / Re := div_le_div_of_nonneg_left h1.le h a
    rw [if_pos a]
    by_cases b : Re' ≤ R2
    · rw [if_pos b]
      have := mono p2 hp2 R1 Re' hR1 s1.le
      have : c2 * Re' ^ (-p2) ≤ c2 * R1 ^ (-p2) := by gcongr
      have : l1 * (c1 / R1) ≤ 1.003 * (c1 / Re) := mul_le_mul l1' e1 (by positivity) (by norm_num)
      rw [mul_div_assoc]
      linarith
    · rw [if_neg b]
      have := mono p3 hp3 R2 Re' hR2' (not_le.1 b).le
      have k1 : c3 * Re' ^ (-p3) ≤ c3 * R2 ^ (-p3) := by gcongr
      have k2 : l2 * (c2 * R2 ^ (-p2)) ≤ l2 * (l1 * (c1 / R1)) := by
        have : c2 * R2 ^ (-p2) ≤ c2 * R1 ^ (-p2) := by gcongr
        exact mul_le_mul_of_nonneg_left (this.trans j1) (by linarith)
      have k3 : l2 * (l1 * (c1 / R1)) ≤ 1.003 * (c1 / Re) := by
        rw [← mul_assoc, mul_comm l2 l1]
        exact mul_le_mul hl e1 (by positivity) (by norm_num)
      rw [mul_div_assoc]
      linarith
  · rw [if_neg a]
    have a' := not_le.1 a
    have hb := s2 a'
    rw [if_neg (not_le.2 hb), if_pos s3]
    have := mono p3 hp3 R2 Re' hR2' hb.le
    have k1 : c3 * Re' ^ (-p3) ≤ c3 * R2 ^ (-p3) := by gcongr
    have := mono p2 hp2 Re R2 h s3
    have k2 : l2 * (c2 * R2 ^ (-p2)) ≤ 1.003 * (c2 * Re ^ (-p2)) := by
      have := pos p2 R2 hR2'
      exact mul_le_mul l2' (by gcongr) (by positivity) (by norm_num)
    linarith

lemma jump1 {c1 c2 l R : ℝ} (n : ℕ) (hR : 0 < R) (h1 : 0 < c1) (h2 : 0 < c2) (hl : 0 < l) (h : R ^ n ≤ (l * c1 / c2) ^ 1000) {p : ℝ} (hp : p = 1 - (n : ℝ) / (1000 : ℕ)) :
    c2 * R ^ (-p) ≤ l * (c1 / R) := by
  have := rpow_le_of_pow hR.le (by positivity) n 1000 (by norm_num) h
  rw [hp, neg_sub, Real.rpow_sub hR, Real.rpow_one]
  rw [le_div_iff₀ h2] at this
  rw [← mul_div_assoc, ← mul_div_assoc, mul_comm c2]
  gcongr

lemma jump2 {c2 c3 l R : ℝ} (n : ℕ) (hR : 0 < R) (h2 : 0 < c2) (h3 : 0 < c3) (hl : 0 < l) (h : R ^ n ≤ (l * c2 / c3) ^ 1000) {p q : ℝ} (hp : p - q = (n : ℝ) / (1000 : ℕ)) :
    c3 * R ^ (-q) ≤ l * (c2 * R ^ (-p)) := by
  have := rpow_le_of_pow hR.le (by positivity) n 1000 (by norm_num) h
  rw [show -q = (n : ℝ) / (1000 : ℕ) + -p by rw [← hp]; ring, Real.rpow_add hR]
  rw [le_div_iff₀ h3] at this
  have hq := Real.rpow_pos_of_pos hR (-p)
  nlinarith

set_option exponentiation.threshold 2000 in
/-- C118: Kumar's factor exists for every positive Reynolds number and every angle, is positive, is that of 65° for any larger angle and one of five rows otherwise; along a row it decreases except for
the documented discontinuities, which never raise it by more than 0.3 %. -/
theorem C118_kumar {Re Re' : ℝ} (h : 0 < Re) (hRR : Re ≤ Re') (ang : ℝ) :
    friction_plate_Kumar Re ang = .ok (kumarSpec Re ang) ∧ 0 < kumarSpec Re ang ∧ kumarSpec Re' ang ≤ 1.003 * kumarSpec Re ang ∧
    (65 ≤ ang → friction_plate_Kumar Re ang = friction_plate_Kumar Re 65) ∧ (500 < Re → kumarSpec Re' ang ≤ kumarSpec Re ang) := by
  have rows : 0 < kumarSpec Re ang ∧ kumarSpec Re' ang ≤ 1.003 * kumarSpec Re ang ∧ (500 < Re → kumarSpec Re' ang ≤ kumarSpec Re ang) := by
    unfold kumarSpec
    by_cases a : ang ≤ 30
    · rw [if_pos a, if_pos a]
      obtain ⟨x, y, z⟩ := pieces_mono (l1 := 1) (l2 := 1) (R1 := 10) (R2 := 100) (c1 := 50) (c2 := 19.40) (c3 := 2.990) (p2 := 0.589) (p3 := 0.183) (by norm_num) (by norm_num) (by norm_num)
        (by norm_num) (by norm_num) (by norm_num) (by norm_num) le_rfl le_rfl (by norm_num) (jump1 411 (by norm_num) (by norm_num) (by norm_num) (by norm_num) (by norm_num) (by norm_num))
        (jump2 406 (by norm_num) (by norm_num) (by norm_num) (by norm_num) (by norm_num) (by norm_num)) h hRR
      exact ⟨x, y, fun hR => z (.inr (.inr (by linarith)))⟩
    rw [if_neg a, if_neg a]
    by_cases b : ang ≤ 45
    · rw [if_pos b, if_pos b]
      obtain ⟨x, y, z⟩ := pieces_mono (l1 := 1) (l2 := 1.003) (R1 := 15) (R2 := 300) (c1 := 47) (c2 := 18.29) (c3 := 1.441) (p2 := 0.652) (p3 := 0.206) (by norm_num) (by norm_num) (by norm_num)
        (by norm_num) (by norm_num) (by norm_num) (by norm_num) le_rfl (by norm_num) (by norm_num) (jump1 348 (by norm_num) (by norm_num) (by norm_num) (by norm_num) (by norm_num) (by norm_num))
        (jump2 446 (by norm_num) (by norm_num) (by norm_num) (by norm_num) (by norm_num) (by norm_num)) h hRR
      exact ⟨x, y, fun hR => z (.inr (.inr (by linarith)))⟩
    rw [if_neg b, if_neg b]
    by_cases c : ang ≤ 50
    · rw [if_pos c, if_pos c]
      obtain ⟨x, y, z⟩ := pieces_mono (l1 := 1) (l2 := 1.003) (R1 := 20) (R2 := 300) (c1 := 34) (c2 := 11.25) (c3 := 0.772) (p2 := 0.631) (p3 := 0.161) (by norm_num) (by norm_num) (by norm_num)
        (by norm_num) (by norm_num) (by norm_num) (by norm_num) le_rfl (by norm_num) (by norm_num) (jump1 369 (by norm_num) (by norm_num) (by norm_num) (by norm_num) (by norm_num) (by norm_num))
        (jump2 470 (by norm_num) (by norm_num) (by norm_num) (by norm_num) (by norm_num) (by norm_num)) h hRR
      exact ⟨x, y, fun hR => z (.inr (.inr (by linarith)))⟩
    rw [if_neg c, if_neg c]
    by_cases d : ang ≤ 60
    · rw [if_pos d, if_pos d]
      obtain ⟨x, y, z⟩ := pieces_mono (l1 := 1.001) (l2 := 1) (R1 := 40) (R2 := 400) (c1 := 24) (c2 := 3.24) (c3 := 0.760) (p2 := 0.457) (p3 := 0.215) (by norm_num) (by norm_num) (by norm_num)
        (by norm_num) (by norm_num) (by norm_num) (by norm_num) (by norm_num) le_rfl (by norm_num) (jump1 543 (by norm_num) (by norm_num) (by norm_num) (by norm_num) (by norm_num) (by norm_num))
        (jump2 242 (by norm_num) (by norm_num) (by norm_num) (by norm_num) (by norm_num) (by norm_num)) h hRR
      exact ⟨x, y, fun hR => z (.inr (.inr (by linarith)))⟩
    · rw [if_neg d, if_neg d]
      obtain ⟨x, y, z⟩ := pieces_mono (l1 := 1) (l2 := 1.003) (R1 := 50) (R2 := 500) (c1 := 24) (c2 := 2.80) (c3 := 0.639) (p2 := 0.451) (p3 := 0.213) (by norm_num) (by norm_num) (by norm_num)
        (by norm_num) (by norm_num) (by norm_num) (by norm_num) le_rfl (by norm_num) (by norm_num) (jump1 549 (by norm_num) (by norm_num) (by norm_num) (by norm_num) (by norm_num) (by norm_num))
        (jump2 238 (by norm_num) (by norm_num) (by norm_num) (by norm_num) (by norm_num) (by norm_num)) h hRR
      exact ⟨x, y, fun hR => z (.inr (.inr (by linarith)))⟩
  refine ⟨kumar_val h ang, rows.1, rows.2.1, fun h65 => ?_, rows.2.2⟩
  rw [kumar_val h, kumar_val h]
  unfold kumarSpec
  rw [if_neg (by linarith), if_neg (by linarith), if_neg (by linarith), if_neg (by linarith), if_neg (by norm_num), if_neg (by norm_num), if_neg (by norm_num), if_neg (by norm_num)]

/-! ### Muley and Manglik -/

/-- C118: this factor is positive for every angle and enlargement factors of 1 to 2, and decreases with the Reynolds number as a power between −0.2577 and −0.1423. -/
theorem C118_muley_manglik {Re Re' ang e : ℝ} (h : 0 < Re) (hRR : Re < Re') (h1 : 1 ≤ e) (h2 : e ≤ 2) :
    ∃ f f' s : ℝ, friction_plate_Muley_Manglik Re ang e = .ok f ∧ friction_plate_Muley_Manglik Re' ang e = .ok f' ∧ 0 < f' ∧ f' < f ∧ -0.2577 ≤ s ∧ s ≤ -0.1423 ∧ f' / f = (Re' / Re) ^ s := by
  have t1 : 0 < 2.917 - 0.1277 * ang + 2.016e-3 * ang ^ 2 := by nlinarith [sq_nonneg (ang - 31.67)]
  have t2 : 0 < 5.474 - 19.02 * e + 18.93 * e ^ 2 - 5.341 * e ^ 3 := by
    obtain ⟨s, rfl⟩ : ∃ s, e = 1 + s := ⟨e - 1, by ring⟩
    have s0 : 0 ≤ s := by linarith
    have s1 : s ≤ 1 := by linarith
    have a : s ^ 3 ≤ s ^ 2 := by nlinarith [sq_nonneg s]
    have b : s ^ 2 ≤ s := by nlinarith
    have c : 0 ≤ s ^ 2 := sq_nonneg s
    nlinarith
  have hs := Real.sin_le_one (π * ang / 45 + 2.1)
  have hs' := Real.neg_one_le_sin (π * ang / 45 + 2.1)
  have h' : 0 < Re' := h.trans hRR
  have v : ∀ R : ℝ, 0 < R → friction_plate_Muley_Manglik R ang e = .ok (4 * (2.917 - 0.1277 * ang + 2.016e-3 * ang ^ 2) * (5.474 - 19.02 * e + 18.93 * e ^ 2 - 5.341 * e ^ 3) *
      R ^ (-(0.2 + 0.0577 * Real.sin (π * ang / 45 + 2.1)))) := by
    intro R hR
    unfold friction_plate_Muley_Manglik
    simp only [ppow_ok hR, Py.ok_bind, Py.pure_eq]
  refine ⟨_, _, -(0.2 + 0.0577 * Real.sin (π * ang / 45 + 2.1)), v Re h, v Re' h', ?_, ?_, by linarith, by linarith, ?_⟩
  · positivity
  · have := Real.rpow_lt_rpow_of_neg h hRR (show -(0.2 + 0.0577 * Real.sin (π * ang / 45 + 2.1)) < 0 by linarith)
    gcongr
  · rw [Real.div_rpow h'.le h.le, mul_div_mul_left]
    positivity

example : ∃ f f' s : ℝ, friction_plate_Muley_Manglik 1000 45 1.3 = .ok f ∧ friction_plate_Muley_Manglik 2000 45 1.3 = .ok f' ∧ 0 < f' ∧ f' < f ∧ -0.2577 ≤ s ∧ s ≤ -0.1423 ∧
    f' / f = ((2000 : ℝ) / 1000) ^ (s : ℝ) := C118_muley_manglik (by norm_num) (by norm_num) (by norm_num) (by norm_num)

end Verif.Plates
