import Verif.Model.PackedTower
import Verif.Lemmas.Tactic
import Mathlib.Analysis.SpecialFunctions.Pow.Real

/-! C96: demisters and the Robbins pressure drop. -/

open Real

noncomputable section

namespace Verif.PackedTower

/-! ### voidage and specific area from measurements -/

/-- C96: the voidage is the fraction of the cylinder that the mesh does not fill: mass = density · (1 - voidage) · volume; and it determines the mass -/
theorem C96_voidage_experimental {m rho D H : ℝ} (hr : 0 < rho) (hD : 0 < D) (hH : 0 < H) :
    ∃ e, voidage_experimental m rho D H = .ok e ∧ m = rho * ((1 - e) * (π * (D / 2) ^ 2 * H)) ∧ (0 < m → e < 1) ∧
      (m < rho * (π * (D / 2) ^ 2 * H) → 0 < e) := by
  have hp := pi_pos
  have e1 : π / 4 * D ^ 2 * H = π * (D / 2) ^ 2 * H := by ring
  refine ⟨1 - m / (π / 4 * D ^ 2 * H) / rho, by unfold voidage_experimental; py_eval [], ?_, fun hm => ?_, fun hm => ?_⟩
  · rw [e1, sub_sub_cancel]; field_simp
  · have : 0 < m / (π / 4 * D ^ 2 * H) / rho := by positivity
    linarith
  · rw [sub_pos, div_div, div_lt_one (by positivity), e1]; linarith

/-- C96: the specific area is the surface of the wire volume: area per volume = 4/d · wire fraction, so for a wire of length `l` in the volume `V`
the area `π d l / V` -/
theorem C96_specific_area {ε d l V : ℝ} (hd : 0 < d) (hV : 0 < V) (hl : π / 4 * d ^ 2 * l = (1 - ε) * V) :
    specific_area_mesh ε d = .ok (π * d * l / V) := by
  unfold specific_area_mesh
  rw [pdiv_ok hd.ne']
  congr 1
  field_simp
  linear_combination (-4) * hl

/-! ### Setekleiv and Svendsen -/

/-- C96: the dry demister pressure drop, published and literature constants: for `S·L ≥ 56` (beyond the poles of the fit) it exists, exceeds its inertial part,
and rises strictly with the velocity -/
theorem C96_demister_dry {S ε vs vs' rho mu L : ℝ} (hS : 0 < S) (he : 0 < ε) (hv : 0 < vs) (hlt : vs < vs') (hr : 0 < rho) (hm : 0 < mu) (hL : 0 < L)
    (h : 56 ≤ S * L) :
    (∃ P P', dP_demister_dry_Setekleiv_Svendsen S ε vs rho mu L = .ok P ∧ dP_demister_dry_Setekleiv_Svendsen S ε vs' rho mu L = .ok P' ∧
      10.29 * rho * vs ^ 2 / ε ^ 2 < P ∧ P < P') ∧
    (∃ P P', dP_demister_dry_Setekleiv_Svendsen_lit S ε vs rho mu L = .ok P ∧ dP_demister_dry_Setekleiv_Svendsen_lit S ε vs' rho mu L = .ok P' ∧
      7.3 * rho * vs ^ 2 / ε ^ 2 < P ∧ P < P') := by
  have hv' := hv.trans hlt
  have q1 : 69.6 * S * L - (S * L) ^ 2 - 779 < 0 := by nlinarith
  have q2 : 160.9 - 4.85 * S * L < 0 := by nlinarith
  have q3 : 161 - 4.85 * S * L < 0 := by nlinarith
  have n1 := q1.ne; have n2 := q2.ne; have n3 := q3.ne
  have key : ∀ {t c : ℝ}, 0 < t → 0 < c →
      (t + c * (mu * ε * S ^ 2 * L / rho / vs) ^ (0.75:ℝ)) * rho * vs ^ 2 / ε ^ 2 < (t + c * (mu * ε * S ^ 2 * L / rho / vs') ^ (0.75:ℝ)) * rho * vs' ^ 2 / ε ^ 2 := by
    intro t c ht hc
    set m := mu * ε * S ^ 2 * L / rho with hmm
    have hmp : 0 < m := by rw [hmm]; positivity
    have e : ∀ v : ℝ, 0 < v → (m / v) ^ (0.75:ℝ) * v ^ 2 = m ^ (0.75:ℝ) * v ^ (1.25:ℝ) := by
      intro v hv
      rw [div_rpow hmp.le hv.le, show (1.25:ℝ) = 2 - 0.75 by norm_num, rpow_sub hv, show v ^ (2:ℝ) = v ^ 2 by exact_mod_cast rpow_natCast v 2]
      ring
    have f : ∀ v : ℝ, 0 < v → (t + c * (m / v) ^ (0.75:ℝ)) * rho * v ^ 2 / ε ^ 2 = (t * v ^ 2 + c * (m ^ (0.75:ℝ) * v ^ (1.25:ℝ))) * (rho / ε ^ 2) := by
      intro v hv; rw [← e v hv]; ring
    rw [f vs hv, f vs' hv']
    have h1 : vs ^ (1.25:ℝ) < vs' ^ (1.25:ℝ) := rpow_lt_rpow hv.le hlt (by norm_num)
    have h2 : vs ^ 2 < vs' ^ 2 := by gcongr
    have h3 := rpow_pos_of_pos hmp 0.75
    gcongr
  have lower : ∀ {b t c : ℝ}, b < t → 0 < c → b * rho * vs ^ 2 / ε ^ 2 < (t + c * (mu * ε * S ^ 2 * L / rho / vs) ^ (0.75:ℝ)) * rho * vs ^ 2 / ε ^ 2 := by
    intro b t c hb hc
    have : 0 < c * (mu * ε * S ^ 2 * L / rho / vs) ^ (0.75:ℝ) := by positivity
    gcongr; linarith
  have a1 : 10.29 < 10.29 - 565 / (69.6 * S * L - (S * L) ^ 2 - 779) - 74.9 / (160.9 - 4.85 * S * L) := by
    have := div_neg_of_pos_of_neg (by norm_num : (0:ℝ) < 565) q1
    have := div_neg_of_pos_of_neg (by norm_num : (0:ℝ) < 74.9) q2
    linarith
  have a2 : 7.3 < 7.3 - 320 / (69.6 * S * L - (S * L) ^ 2 - 779) - 52.4 / (161 - 4.85 * S * L) := by
    have := div_neg_of_pos_of_neg (by norm_num : (0:ℝ) < 320) q1
    have := div_neg_of_pos_of_neg (by norm_num : (0:ℝ) < 52.4) q3
    linarith
  refine ⟨⟨_, _, by unfold dP_demister_dry_Setekleiv_Svendsen; py_eval []; rfl, by unfold dP_demister_dry_Setekleiv_Svendsen; py_eval [], lower a1 (by norm_num), key (by linarith) (by norm_num)⟩,
    ⟨_, _, by unfold dP_demister_dry_Setekleiv_Svendsen_lit; py_eval []; rfl, by unfold dP_demister_dry_Setekleiv_Svendsen_lit; py_eval [], lower a2 (by norm_num), key (by linarith) (by norm_num)⟩⟩

/-- C96: finding: the fit has poles: at `S·L = 160.9/4.85` it raises ZeroDivisionError, and between the poles it gives negative pressure drops at high velocity -/
theorem C96_demister_pole {S ε vs rho mu L : ℝ} (h : 4.85 * (S * L) = 160.9) :
    dP_demister_dry_Setekleiv_Svendsen S ε vs rho mu L = .error .zeroDivisionError := by
  have n1 : 69.6 * S * L - (S * L) ^ 2 - 779 ≠ 0 := by
    have : S * L = 160.9 / 4.85 := by linarith
    rw [mul_assoc, this]; norm_num
  unfold dP_demister_dry_Setekleiv_Svendsen
  rw [pdiv_ok n1, Py.ok_bind, show 160.9 - 4.85 * S * L = 0 by linarith, pdiv_zero, Py.error_bind]

/-- C96: finding: a 15 mm demister of specific area 1000 (documented range) with gas has a negative pressure drop at high velocity -/
theorem C96_demister_negative {ε rho mu : ℝ} (he : 0 < ε) (hr : 0 < rho) (hm : 0 < mu) :
    ∃ v0, ∀ vs > v0, ∃ P, dP_demister_dry_Setekleiv_Svendsen 1000 ε vs rho mu 0.015 = .ok P ∧ P < 0 := by
  set m := mu * ε * 1000 ^ 2 * 0.015 / rho with hmm
  have hmp : 0 < m := by rw [hmm]; positivity
  refine ⟨m * 1e6, fun vs hv => ?_⟩
  have hv0 : 0 < vs := lt_trans (by positivity) hv
  have n1 : (69.6 * 1000 * 0.015 - (1000 * 0.015) ^ 2 - 779 : ℝ) ≠ 0 := by norm_num
  have n2 : (160.9 - 4.85 * 1000 * 0.015 : ℝ) ≠ 0 := by norm_num
  refine ⟨_, by unfold dP_demister_dry_Setekleiv_Svendsen; py_eval []; rfl, ?_⟩
  rw [← hmm]
  have h1 : m / vs ≤ 1e-6 := by rw [div_le_iff₀ hv0]; linarith
  have h2 : (m / vs) ^ (0.75:ℝ) ≤ (1e-6:ℝ) ^ (0.75:ℝ) := rpow_le_rpow (by positivity) h1 (by norm_num)
  have h3 : (1e-6:ℝ) ^ (0.75:ℝ) ≤ (1e-6:ℝ) ^ (0.5:ℝ) := rpow_le_rpow_of_exponent_ge (by norm_num) (by norm_num) (by norm_num)
  have h4 : (1e-6:ℝ) ^ (0.5:ℝ) = 1e-3 := by
    rw [show (1e-6:ℝ) = 1e-3 ^ (2:ℝ) by norm_num, ← rpow_mul (by norm_num)]; norm_num
  have : (10.29 - 565 / (69.6 * 1000 * 0.015 - (1000 * 0.015) ^ 2 - 779) - 74.9 / (160.9 - 4.85 * 1000 * 0.015) + 45.33 * (m / vs) ^ (0.75:ℝ)) < 0 := by
    rw [h4] at h3
    norm_num at *
    linarith
  have hq : 0 < rho * vs ^ 2 / ε ^ 2 := by positivity
  have := mul_neg_of_neg_of_pos this hq
  calc _ = _ := by ring
    _ < 0 := this

/-! ### El-Dessouky -/

/-- C96: the wet demister pressure drop is positive, proportional to the thickness, rises strictly with the velocity, falls strictly with the voidage and with
the wire diameter -/
theorem C96_demister_wet {vs ε d L : ℝ} (hv : 0 < vs) (he : ε < 1) (hd : 0 < d) (hL : 0 < L) :
    ∃ P, dP_demister_wet_ElDessouky vs ε d L = .ok P ∧ 0 < P ∧
      (∀ k > 0, dP_demister_wet_ElDessouky vs ε d (k * L) = .ok (k * P)) ∧
      (∀ vs' > vs, ∃ P', dP_demister_wet_ElDessouky vs' ε d L = .ok P' ∧ P < P') ∧
      (∀ ε' > ε, ε' < 1 → ∃ P', dP_demister_wet_ElDessouky vs ε' d L = .ok P' ∧ P' < P) ∧
      (∀ d' > d, ∃ P', dP_demister_wet_ElDessouky vs ε d' L = .ok P' ∧ P' < P) := by
  have f : ∀ {v e w l : ℝ}, 0 < v → e < 1 → 0 < w →
      dP_demister_wet_ElDessouky v e w l = .ok (l * 0.002356999643727531 * (1 - e) ^ (0.375798:ℝ) * v ^ (0.81317:ℝ) * w ^ (-1.56114147:ℝ)) := by
    intro v e w l h1 h2 h3
    have : 0 < 1 - e := by linarith
    unfold dP_demister_wet_ElDessouky; py_eval []
  have h1 : 0 < 1 - ε := by linarith
  have p1 := rpow_pos_of_pos h1 0.375798; have p2 := rpow_pos_of_pos hv 0.81317; have p3 := rpow_pos_of_pos hd (-1.56114147)
  refine ⟨_, f hv he hd, by positivity, fun k hk => ?_, fun vs' h => ⟨_, f (hv.trans h) he hd, ?_⟩, fun ε' h h' => ⟨_, f hv h' hd, ?_⟩, fun d' h => ⟨_, f hv he (hd.trans h), ?_⟩⟩
  · rw [f hv he hd]; congr 1; ring
  · have := rpow_lt_rpow hv.le h (by norm_num : (0:ℝ) < 0.81317)
    gcongr
  · have := rpow_lt_rpow (by linarith : 0 ≤ 1 - ε') (by linarith : 1 - ε' < 1 - ε) (by norm_num : (0:ℝ) < 0.375798)
    gcongr
  · have := rpow_lt_rpow_of_neg hd h (by norm_num : (-1.56114147:ℝ) < 0)
    gcongr

/-- C96: the separation efficiency of a demister is a fraction, never falls with velocity or droplet size, never rises with voidage or wire diameter, and is
the fitted power law wherever that is below one -/
theorem C96_separation {vs ε dw dd : ℝ} (hv : 0 < vs) (he : ε < 1) (hw : 0 < dw) (hd : 0 < dd) :
    ∃ y, separation_demister_ElDessouky vs ε dw dd = .ok y ∧ 0 < y ∧ y ≤ 1 ∧
      (y < 1 → y = 0.858352355761947 * dw ^ (-0.28264:ℝ) * (1 - ε) ^ (0.099625:ℝ) * vs ^ (0.106878:ℝ) * dd ^ (0.383197:ℝ)) ∧
      (∀ vs' > vs, ∃ y', separation_demister_ElDessouky vs' ε dw dd = .ok y' ∧ y ≤ y') ∧
      (∀ dd' > dd, ∃ y', separation_demister_ElDessouky vs ε dw dd' = .ok y' ∧ y ≤ y') ∧
      (∀ ε' > ε, ε' < 1 → ∃ y', separation_demister_ElDessouky vs ε' dw dd = .ok y' ∧ y' ≤ y) ∧
      (∀ dw' > dw, ∃ y', separation_demister_ElDessouky vs ε dw' dd = .ok y' ∧ y' ≤ y) := by
  have f : ∀ {v e w d : ℝ}, 0 < v → e < 1 → 0 < w → 0 < d →
      separation_demister_ElDessouky v e w d = .ok (min (0.858352355761947 * w ^ (-0.28264:ℝ) * (1 - e) ^ (0.099625:ℝ) * v ^ (0.106878:ℝ) * d ^ (0.383197:ℝ)) 1) := by
    intro v e w d h1 h2 h3 h4
    have : 0 < 1 - e := by linarith
    unfold separation_demister_ElDessouky; py_eval []
  have h1 : 0 < 1 - ε := by linarith
  have p1 := rpow_pos_of_pos h1 0.099625; have p2 := rpow_pos_of_pos hv 0.106878; have p3 := rpow_pos_of_pos hw (-0.28264); have p4 := rpow_pos_of_pos hd 0.383197
  refine ⟨_, f hv he hw hd, lt_min (by positivity) one_pos, min_le_right _ _, fun h => ?_, fun v h => ⟨_, f (hv.trans h) he hw hd, min_le_min ?_ le_rfl⟩,
    fun d h => ⟨_, f hv he hw (hd.trans h), min_le_min ?_ le_rfl⟩, fun e h h' => ⟨_, f hv h' hw hd, min_le_min ?_ le_rfl⟩, fun w h => ⟨_, f hv he (hw.trans h) hd, min_le_min ?_ le_rfl⟩⟩
  · rcases min_lt_iff.mp h with h | h
    · exact min_eq_left h.le
    · exact absurd h (lt_irrefl _)
  · have := rpow_le_rpow hv.le h.le (by norm_num : (0:ℝ) ≤ 0.106878)
    gcongr
  · have := rpow_le_rpow hd.le h.le (by norm_num : (0:ℝ) ≤ 0.383197)
    gcongr
  · have := rpow_le_rpow (by linarith : 0 ≤ 1 - e) (by linarith : 1 - e ≤ 1 - ε) (by norm_num : (0:ℝ) ≤ 0.099625)
    gcongr
  · have := (rpow_lt_rpow_of_neg hw h (by norm_num : (-0.28264:ℝ) < 0)).le
    gcongr

/-! ### Robbins -/

/-- loading factors of the Robbins correlation -/
def robbinsL (L rhol mul Fpd : ℝ) : ℝ := L * 737.33812 * (62.4 / (rhol * 0.062427961)) * √(0.05 * Fpd) * (mul * 1000) ^ (0.1:ℝ)
@[inherit_doc robbinsL] def robbinsG (G rhog Fpd : ℝ) : ℝ := G * 737.33812 * √(0.075 / (rhog * 0.062427961)) * √(0.05 * Fpd)
/-- pressure drop of the dry loading at the liquid loading -/
def robbinsD (Lf Gf : ℝ) : ℝ := 7.4e-8 * Gf ^ 2 * 10 ^ (2.7e-5 * Lf)

theorem Robbins_eq {L G rhol rhog mul H Fpd : ℝ} (hL : 0 ≤ L) (hl : 0 < rhol) (hg : 0 < rhog) (hm : 0 < mul) (hF : 0 ≤ Fpd) :
    Robbins L G rhol rhog mul H Fpd = .ok ((robbinsD (robbinsL L rhol mul Fpd) (robbinsG G rhog Fpd) +
      0.4 * (robbinsL L rhol mul Fpd / 20000) ^ (0.1:ℝ) * robbinsD (robbinsL L rhol mul Fpd) (robbinsG G rhog Fpd) ^ 4) * 817.22083 * H) := by
  have hLf : 0 ≤ robbinsL L rhol mul Fpd := by unfold robbinsL; positivity
  have e1 : ((0.05 * Fpd : ℝ)) ≥ 0 := by positivity
  unfold Robbins
  simp only [psqrt_ok e1, Py.ok_bind, pdiv_ok (show rhol * 0.062427961 ≠ 0 by positivity), ppow_ok (show 0 < mul * 1000 by positivity),
    pdiv_ok (show rhog * 0.062427961 ≠ 0 by positivity), psqrt_ok (show 0 ≤ 0.075 / (rhog * 0.062427961) by positivity), ppow_ok (show (0:ℝ) < 10 by norm_num)]
  have e2 : L * 737.33812 * (62.4 / (rhol * 0.062427961)) * √(0.05 * Fpd) * (mul * 1000) ^ (0.1:ℝ) = robbinsL L rhol mul Fpd := rfl
  have e3 : G * 737.33812 * √(0.075 / (rhog * 0.062427961)) * √(0.05 * Fpd) = robbinsG G rhog Fpd := rfl
  rw [e2, e3]
  rw [ppow_ok' (by positivity) (by norm_num), Py.ok_bind, Py.pure_eq, show (5e-5:ℝ) * robbinsL L rhol mul Fpd = robbinsL L rhol mul Fpd / 20000 by ring]
  congr 1
  unfold robbinsD; ring

/-- C96: the Robbins pressure drop exists for every liquid load, is the published equation in the two loading factors, is proportional to the height and rises
strictly with the gas and with the liquid load -/
theorem C96_Robbins {L G rhol rhog mul H Fpd : ℝ} (hL : 0 ≤ L) (hG : 0 < G) (hl : 0 < rhol) (hg : 0 < rhog) (hm : 0 < mul) (hH : 0 < H) (hF : 0 < Fpd) :
    ∃ P, Robbins L G rhol rhog mul H Fpd = .ok P ∧ 0 < P ∧ (∀ k > 0, Robbins L G rhol rhog mul (k * H) Fpd = .ok (k * P)) ∧
      (∀ G' > G, ∃ P', Robbins L G' rhol rhog mul H Fpd = .ok P' ∧ P < P') ∧ (∀ L' > L, ∃ P', Robbins L' G rhol rhog mul H Fpd = .ok P' ∧ P < P') := by
  have hLf : ∀ {L}, 0 ≤ L → 0 ≤ robbinsL L rhol mul Fpd := fun h => by unfold robbinsL; positivity
  have hGf : ∀ {G}, 0 < G → 0 < robbinsG G rhog Fpd := fun h => by unfold robbinsG; positivity
  have hD : ∀ {l q : ℝ}, 0 < q → 0 < robbinsD l q := fun h => by unfold robbinsD; positivity
  have hd := hD (l := robbinsL L rhol mul Fpd) (hGf hG)
  have hll := hLf hL
  refine ⟨_, Robbins_eq hL hl hg hm hF.le, by positivity, fun k hk => ?_, fun G' h => ⟨_, Robbins_eq hL hl hg hm hF.le, ?_⟩,
    fun L' h => ⟨_, Robbins_eq (hL.trans h.le) hl hg hm hF.le, ?_⟩⟩
  · rw [Robbins_eq hL hl hg hm hF.le]; congr 1; ring
  · have e : robbinsG G rhog Fpd < robbinsG G' rhog Fpd := by unfold robbinsG; gcongr
    have e2 : robbinsD (robbinsL L rhol mul Fpd) (robbinsG G rhog Fpd) < robbinsD (robbinsL L rhol mul Fpd) (robbinsG G' rhog Fpd) := by
      have := hGf hG
      unfold robbinsD; gcongr
    have e4 : 0.4 * (robbinsL L rhol mul Fpd / 20000) ^ (0.1:ℝ) * robbinsD (robbinsL L rhol mul Fpd) (robbinsG G rhog Fpd) ^ 4 ≤
        0.4 * (robbinsL L rhol mul Fpd / 20000) ^ (0.1:ℝ) * robbinsD (robbinsL L rhol mul Fpd) (robbinsG G' rhog Fpd) ^ 4 := by gcongr
    have := add_lt_add_of_lt_of_le e2 e4
    gcongr
  · have e : robbinsL L rhol mul Fpd < robbinsL L' rhol mul Fpd := by unfold robbinsL; gcongr
    have e2 : robbinsD (robbinsL L rhol mul Fpd) (robbinsG G rhog Fpd) < robbinsD (robbinsL L' rhol mul Fpd) (robbinsG G rhog Fpd) := by
      have := hGf hG
      unfold robbinsD
      have : (10:ℝ) ^ (2.7e-5 * robbinsL L rhol mul Fpd) < 10 ^ (2.7e-5 * robbinsL L' rhol mul Fpd) := rpow_lt_rpow_of_exponent_lt (by norm_num) (by gcongr)
      gcongr
    have e3 : (robbinsL L rhol mul Fpd / 20000) ^ (0.1:ℝ) ≤ (robbinsL L' rhol mul Fpd / 20000) ^ (0.1:ℝ) := rpow_le_rpow (by positivity) (by gcongr) (by norm_num)
    gcongr

/-- the documented examples meet the hypotheses -/
example : (56:ℝ) ≤ 250 * 1 ∧ (0:ℝ) < 0.983 ∧ (0.98:ℝ) < 1 ∧ (0:ℝ) < 0.00032 := by norm_num
example : ∃ P, Robbins 12.2 2.03 1000 1.1853 0.001 2 24 = .ok P ∧ 0 < P :=
  let ⟨P, h, h', _⟩ := C96_Robbins (L := 12.2) (G := 2.03) (rhol := 1000) (rhog := 1.1853) (mul := 0.001) (H := 2) (Fpd := 24) (by norm_num) (by norm_num) (by norm_num)
    (by norm_num) (by norm_num) (by norm_num) (by norm_num)
  ⟨P, h, h'⟩

end Verif.PackedTower
