import Verif.Props.PsdClasses
import Mathlib.Analysis.Calculus.Deriv.MeanValue
import Mathlib.MeasureTheory.Integral.IntervalIntegral.FundThmCalculus

/-! C68: asking a distribution in another basis, and mean sizes. -/

open Real MeasureTheory Filter Topology

noncomputable section

namespace Verif.Psd

/-! ### Specification -/

/-- on the sizes from `lo` to `hi` the distribution `s`, asked in basis `n`, returns a cumulative distribution that rises from 0 to 1 and whose
derivative is the density it returns in that basis; that density is the density `s` returns in its own basis weighted with
`d ^ (n - order)` -/
def Reweighted (s : Dist) (order n lo hi : ℝ) : Prop :=
  ∃ C : ℝ → ℝ, (∀ d, lo ≤ d → d ≤ hi → s.cdf d (some n) = .ok (C d) ∧ 0 ≤ C d ∧ C d ≤ 1) ∧ C lo = 0 ∧ C hi = 1 ∧
    StrictMonoOn C (Set.Icc lo hi) ∧ ContinuousOn C (Set.Icc lo hi) ∧
    ∃ Z, 0 < Z ∧ ∀ d, lo < d → d < hi → ∃ g, s.pdf d = .ok g ∧ s.pdf d (some n) = .ok (d ^ (n - order) * g / Z) ∧
      HasDerivAt C (d ^ (n - order) * g / Z) d

/-- the integral function handed to a distribution: `J` is what it returns, its derivative is the weighted density -/
structure Antiderivative (I : ℝ → Py ℝ) (f : ℝ → Py ℝ) (J g : ℝ → ℝ) (p lo hi : ℝ) : Prop where
  eval : ∀ d, lo ≤ d → d ≤ hi → I d = .ok (J d)
  cont : ContinuousOn J (Set.Icc lo hi)
  density : ∀ d, lo < d → d < hi → f d = .ok (g d) ∧ 0 < g d
  deriv : ∀ d, lo < d → d < hi → HasDerivAt J (d ^ p * g d) d

theorem Antiderivative.strictMono {I f : ℝ → Py ℝ} {J g : ℝ → ℝ} {p lo hi : ℝ} (h : Antiderivative I f J g p lo hi) (hlo : 0 ≤ lo) :
    StrictMonoOn J (Set.Icc lo hi) := by
  refine strictMonoOn_of_deriv_pos (convex_Icc _ _) h.cont fun x hx => ?_
  rw [interior_Icc] at hx
  rw [(h.deriv x hx.1 hx.2).deriv]
  have : 0 < x := hlo.trans_lt hx.1
  have := (h.density x hx.1 hx.2).2
  positivity

theorem reweighted {s : Dist} {n lo : ℝ} {J g : ℝ → ℝ} (hn : n ≠ s.order) (ht : s.truncated = false) (hlo : 0 ≤ lo) (hlt : lo < s.d_excessive)
    (hA : Antiderivative (s.rawIntegral · (n - s.order)) s.rawPdf J g (n - s.order) lo s.d_excessive)
    (h0 : s.rawIntegral 0 (n - s.order) = .ok (J lo)) : Reweighted s s.order n lo s.d_excessive := by
  have hm := hA.strictMono hlo
  have hZ : 0 < J s.d_excessive - J lo := sub_pos.mpr (hm ⟨le_rfl, hlt.le⟩ ⟨hlt.le, le_rfl⟩ hlt)
  have hden : s.definite 0 s.d_excessive (n - s.order) = .ok (J s.d_excessive - J lo) := by
    simp only [Dist.definite, hA.eval _ hlt.le le_rfl, h0, Py.ok_bind]; rfl
  have hdiv : ∀ x : ℝ, x /ₚ (J s.d_excessive - J lo) = .ok (x / (J s.d_excessive - J lo)) := fun x => pdiv_ok hZ.ne'
  refine ⟨fun d => (J d - J lo) / (J s.d_excessive - J lo), fun d h1 h2 => ?_, by simp, div_self hZ.ne', fun a ha b hb hab => ?_, ?_, _, hZ, fun d h1 h2 => ?_⟩
  · have e1 : J lo ≤ J d := hm.monotoneOn ⟨le_rfl, hlt.le⟩ ⟨h1, h2⟩ h1
    have e2 : J d ≤ J s.d_excessive := hm.monotoneOn ⟨h1, h2⟩ ⟨hlt.le, le_rfl⟩ h2
    have e3 : 0 ≤ (J d - J lo) / (J s.d_excessive - J lo) := div_nonneg (by linarith) hZ.le
    refine ⟨?_, e3, by rw [div_le_one hZ]; linarith⟩
    have hnum : s.definite 0 d (n - s.order) = .ok (J d - J lo) := by
      simp only [Dist.definite, hA.eval _ h1 h2, h0, Py.ok_bind]; rfl
    simp only [Dist.cdf, Dist.basisCdf, Dist.rebaseCdf, if_neg hn, hnum, hden, Py.ok_bind, ht, hdiv, max_eq_left e3]; rfl
  · have := hm ha hb hab
    beta_reduce; gcongr
  · exact (hA.cont.sub continuousOn_const).div_const _
  · obtain ⟨hg, hg0⟩ := hA.density d h1 h2
    have hd : 0 < d := hlo.trans_lt h1
    have hp : 0 ≤ d ^ (n - s.order) * g d / (J s.d_excessive - J lo) := by positivity
    refine ⟨g d, ?_, ?_, ((hA.deriv d h1 h2).sub_const _).div_const _⟩
    · simp only [Dist.pdf, Dist.basisPdf, hg, Py.ok_bind, ht, max_eq_left hg0.le]; rfl
    · simp only [Dist.pdf, Dist.basisPdf, Dist.rebasePdf, if_neg hn, hg, ppow_ok hd, hden, Py.ok_bind, ht, hdiv, max_eq_left hp]; rfl

/-! ### Log-normal -/

/-- the value of `pdf_lognormal_basis_integral` at positive sizes -/
def lognormalJ (dc s n d : ℝ) : ℝ := -0.5 * exp (s * s * n * n * 0.5) * dc ^ n * erf ((s * s * n - log (d / dc)) / (√2 * s))

theorem lognormal_body_eval {dc s n d : ℝ} (hdc : 0 < dc) (hs : 0 < s) (hd : 0 < d) :
    lognormal_integral_body d dc s n = .ok (lognormalJ dc s n d) := by
  have h2 : 0 < √(2 : ℝ) := by positivity
  have hr : 0 < d / dc := by positivity
  have e : d / (d / dc) = dc := by field_simp
  unfold lognormal_integral_body lognormalJ
  rw [pdiv_ok hdc.ne']; simp only [Py.ok_bind]
  rw [pdiv_ok hr.ne', e]; simp only [Py.ok_bind]
  py_eval []

theorem lognormal_integral_eval {dc s n d : ℝ} (hdc : 0 < dc) (hs : 0 < s) (hd : 0 < d) :
    pdf_lognormal_basis_integral d dc s n = .ok (lognormalJ dc s n d) := by
  unfold pdf_lognormal_basis_integral; rw [lognormal_body_eval hdc hs hd]

theorem lognormal_integral_zero {dc s n : ℝ} (hdc : 0 < dc) (hs : 0 < s) :
    pdf_lognormal_basis_integral 0 dc s n = .ok (lognormalJ dc s n 1e-80) := by
  have h0 : lognormal_integral_body 0 dc s n = .error .zeroDivisionError := by
    unfold lognormal_integral_body
    rw [pdiv_ok hdc.ne', zero_div]; simp only [Py.ok_bind, pdiv_zero, Py.error_bind]
  unfold pdf_lognormal_basis_integral
  rw [h0]
  simp only [true_or, if_true, lognormal_body_eval hdc hs (by norm_num : (0 : ℝ) < 1e-80)]

theorem lognormalJ_deriv {dc s n d : ℝ} (hdc : 0 < dc) (hs : 0 < s) (hd : 0 < d) :
    HasDerivAt (lognormalJ dc s n) (d ^ n * (1 / (d * s * √(2 * π)) * exp (-0.5 * (log (d / dc) / s) * (log (d / dc) / s)))) d := by
  have hq : d / dc ≠ 0 := by positivity
  have h1 := ((((hasDerivAt_id d).div_const dc).log hq).const_sub (s * s * n)).div_const (√2 * s)
  have h2 := ((erf_hasDerivAt _).comp d h1).const_mul (-0.5 * exp (s * s * n * n * 0.5) * dc ^ n)
  refine h2.congr_deriv ?_
  simp only [id]
  have hs2 : √(2 : ℝ) ^ 2 = 2 := sq_sqrt (by norm_num)
  have hpi : √(2 * π) = √2 * √π := sqrt_mul (by norm_num) _
  have h2p : 0 < √(2 : ℝ) := by positivity
  have hpp : 0 < √π := sqrt_pos.mpr pi_pos
  have hdn : d ^ n = dc ^ n * exp (n * log (d / dc)) := by
    have e : d = dc * (d / dc) := by field_simp
    conv_lhs => rw [e]
    rw [mul_rpow hdc.le (by positivity), rpow_def_of_pos (by positivity : 0 < d / dc), mul_comm n]
  have ee : exp (s * s * n * n * 0.5) * exp (-((s * s * n - log (d / dc)) / (√2 * s)) ^ 2) =
      exp (n * log (d / dc)) * exp (-0.5 * (log (d / dc) / s) * (log (d / dc) / s)) := by
    rw [← exp_add, ← exp_add]; congr 1
    rw [div_pow, mul_pow, hs2]; field_simp; norm_num; ring
  rw [hpi, hdn]
  generalize exp (-((s * s * n - log (d / dc)) / (√2 * s)) ^ 2) = E1 at *
  generalize exp (-0.5 * (log (d / dc) / s) * (log (d / dc) / s)) = E2 at *
  generalize exp (n * log (d / dc)) = E3 at *
  generalize exp (s * s * n * n * 0.5) = E4 at *
  have hdcn : 0 < dc ^ n := by positivity
  generalize dc ^ n = D at *
  field_simp
  linear_combination ee

theorem lognormal_antiderivative {dc s p lo hi : ℝ} (hdc : 0 < dc) (hs : 0 < s) (hlo : 0 < lo) :
    Antiderivative (fun d => pdf_lognormal_basis_integral d dc s p) (fun d => pdf_lognormal d dc s) (lognormalJ dc s p)
      (fun d => 1 / (d * s * √(2 * π)) * exp (-0.5 * (log (d / dc) / s) * (log (d / dc) / s))) p lo hi where
  eval d h1 _ := lognormal_integral_eval hdc hs (hlo.trans_le h1)
  cont d hd := (lognormalJ_deriv hdc hs (hlo.trans_le hd.1)).continuousAt.continuousWithinAt
  density d h1 _ := by
    have hd : 0 < d := hlo.trans h1
    have hp := pi_pos
    refine ⟨?_, by positivity⟩
    unfold pdf_lognormal
    have hq : 0 < d / dc := by positivity
    have h3 : 0 < √(2 * π) := by positivity
    py_eval []
  deriv d h1 _ := lognormalJ_deriv hdc hs (hlo.trans h1)

/-- C68: a `PSDLognormal` asked in any other basis is the reweighted distribution; sizes below 1e-80 m count as 0 and sizes above 1e15
characteristic diameters are left out -/
theorem C68_PSDLognormal_basis {dc s order n : ℝ} (hd : 1e-95 < dc) (hs : 0 < s) (hn : n ≠ order) :
    ∃ D, PSDLognormal dc s order = .ok D ∧ Reweighted D order n 1e-80 (1e15 * dc) := by
  have hdc : 0 < dc := lt_trans (by norm_num) hd
  refine ⟨_, rfl, ?_⟩
  exact reweighted (s := ⟨order, 1e15 * dc, 0, false, 0, 0, 0, 0, _, _, _⟩) hn rfl (by norm_num) (by dsimp only; norm_num at hd ⊢; linarith)
    (lognormal_antiderivative hdc hs (by norm_num)) (lognormal_integral_zero hdc hs)

/-! ### Rosin and Rammler -/

/-- the value of `pdf_Rosin_Rammler_basis_integral` at positive sizes -/
def rosinJ (k m n d : ℝ) : ℝ := -(k ^ (1 - (m + n) / m)) * ∫ t in Set.Ioi (d ^ m * k), exp (-t) * t ^ ((m + n) / m - 1)

theorem rosin_body_eval {k m n d : ℝ} (hk : 0 < k) (hm : 0 < m) (hmn : 0 < m + n) (hd : 0 < d) :
    rosin_integral_body d k m n = .ok (rosinJ k m n d) := by
  have ha : 0 < (m + n) / m := by positivity
  have hG := Gamma_pos_of_pos ha
  have hdm : 0 < d ^ m := by positivity
  have hx : 0 < d ^ m * k := by positivity
  unfold rosin_integral_body rosinJ gammaincc
  py_eval []
  have e1 : d ^ (m + n) = (d ^ m) ^ ((m + n) / m) := by rw [← rpow_mul hd.le]; congr 1; field_simp
  have e2 : (d ^ m * k) ^ (-((m + n) / m)) = (d ^ m) ^ (-((m + n) / m)) * k ^ (-((m + n) / m)) := mul_rpow hdm.le hk.le
  have e3 : (d ^ m) ^ ((m + n) / m) * (d ^ m) ^ (-((m + n) / m)) = 1 := by rw [← rpow_add hdm]; simp
  have e4 : k ^ (1 - (m + n) / m) = k * k ^ (-((m + n) / m)) := by rw [sub_eq_add_neg, rpow_add hk, rpow_one]
  rw [e1, e2, e4]
  generalize (∫ t in Set.Ioi (d ^ m * k), exp (-t) * t ^ ((m + n) / m - 1)) = X
  have e5 : Gamma ((m + n) / m) * (X / Gamma ((m + n) / m)) = X := by field_simp
  rw [e5]
  congr 1
  linear_combination (-(k * k ^ (-((m + n) / m)) * X)) * e3

theorem rosinJ_deriv {k m n d : ℝ} (hk : 0 < k) (hm : 0 < m) (hmn : 0 < m + n) (hd : 0 < d) :
    HasDerivAt (rosinJ k m n) (d ^ n * (d ^ (m - 1) * k * m * exp (-d ^ m * k))) d := by
  have ha : 0 < (m + n) / m := by positivity
  have hdm : 0 < d ^ m := by positivity
  set a := (m + n) / m with hadef
  have hI := Real.GammaIntegral_convergent ha
  have hx : 0 < d ^ m * k := by positivity
  -- derivative of the upper incomplete integral
  have h1 : HasDerivAt (fun x => ∫ t in Set.Ioi x, exp (-t) * t ^ (a - 1)) (-(exp (-(d ^ m * k)) * (d ^ m * k) ^ (a - 1))) (d ^ m * k) := by
    have hc : ContinuousAt (fun t : ℝ => exp (-t) * t ^ (a - 1)) (d ^ m * k) := by
      refine ContinuousAt.mul (by fun_prop) (continuousAt_id.rpow_const (Or.inl hx.ne'))
    have hint : ∀ x, 0 < x → IntegrableOn (fun t : ℝ => exp (-t) * t ^ (a - 1)) (Set.Ioi x) := fun x hx =>
      hI.mono_set (Set.Ioi_subset_Ioi hx.le)
    have h2 : HasDerivAt (fun x => ∫ t in (1 : ℝ)..x, exp (-t) * t ^ (a - 1)) (exp (-(d ^ m * k)) * (d ^ m * k) ^ (a - 1)) (d ^ m * k) := by
      refine intervalIntegral.integral_hasDerivAt_right ?_ ?_ hc
      · rw [intervalIntegrable_iff]
        refine hI.mono_set fun t ht => ?_
        exact (lt_min one_pos hx).trans ht.1
      · refine (ContinuousOn.stronglyMeasurableAtFilter isOpen_Ioi (s := Set.Ioi 0) ?_ _ hx)
        intro t ht
        refine (ContinuousAt.mul (by fun_prop) (continuousAt_id.rpow_const (Or.inl (ne_of_gt ht)))).continuousWithinAt
    refine (h2.const_sub (∫ t in Set.Ioi (1 : ℝ), exp (-t) * t ^ (a - 1))).congr_of_eventuallyEq ?_
    filter_upwards [eventually_gt_nhds hx] with x hx'
    rw [← intervalIntegral.integral_Ioi_sub_Ioi' (hint 1 one_pos) (hint x hx')]; ring
  have h3 := (hasDerivAt_rpow_const (x := d) (p := m) (Or.inl hd.ne')).mul_const k
  have h4 := (h1.comp d h3).const_mul (-(k ^ (1 - a)))
  refine h4.congr_deriv ?_
  have e1 : (d ^ m * k) ^ (a - 1) = d ^ n * k ^ (a - 1) := by
    rw [mul_rpow hdm.le hk.le, ← rpow_mul hd.le]; congr 2
    rw [hadef]; field_simp; ring
  have e2 : k ^ (1 - a) * k ^ (a - 1) = 1 := by rw [← rpow_add hk]; simp
  rw [e1, show -d ^ m * k = -(d ^ m * k) by ring]
  linear_combination (exp (-(d ^ m * k)) * d ^ n * m * d ^ (m - 1) * k) * e2

theorem rosin_integral_eval {k m n d : ℝ} (hk : 0 < k) (hm : 0 < m) (hmn : 0 < m + n) (hd : 0 < d) :
    pdf_Rosin_Rammler_basis_integral d k m n = .ok (rosinJ k m n d) := by
  unfold pdf_Rosin_Rammler_basis_integral; rw [rosin_body_eval hk hm hmn hd]

theorem rosin_integral_zero {k m n : ℝ} (hk : 0 < k) (hm : 0 < m) (hmn : 0 < m + n) :
    pdf_Rosin_Rammler_basis_integral 0 k m n = .ok (rosinJ k m n 1e-40) := by
  have ha : 0 < (m + n) / m := by positivity
  have h0 : rosin_integral_body 0 k m n = .error .zeroDivisionError := by
    unfold rosin_integral_body
    rw [pdiv_ok hm.ne', ppow_ok' le_rfl hm.le, ppow_ok' le_rfl hmn.le, zero_rpow hm.ne']
    simp only [Py.ok_bind, zero_mul]
    have : (0 : ℝ) ^ₚ (-((m + n) / m)) = .error .zeroDivisionError := by
      unfold ppow; simp [ha]
    rw [this]; rfl
  unfold pdf_Rosin_Rammler_basis_integral
  rw [h0]
  simp only [rosin_body_eval hk hm hmn (by norm_num : (0 : ℝ) < 1e-40)]
  norm_num

theorem rosin_antiderivative {k m p lo hi : ℝ} (hk : 0 < k) (hm : 0 < m) (hmp : 0 < m + p) (hlo : 0 < lo) :
    Antiderivative (fun d => pdf_Rosin_Rammler_basis_integral d k m p) (fun d => pdf_Rosin_Rammler d k m) (rosinJ k m p)
      (fun d => d ^ (m - 1) * k * m * exp (-d ^ m * k)) p lo hi where
  eval d h1 _ := rosin_integral_eval hk hm hmp (hlo.trans_le h1)
  cont d hd := (rosinJ_deriv hk hm hmp (hlo.trans_le hd.1)).continuousAt.continuousWithinAt
  density d h1 _ := by
    have hd : 0 < d := hlo.trans h1
    refine ⟨?_, by positivity⟩
    unfold pdf_Rosin_Rammler; py_eval []
  deriv d h1 _ := rosinJ_deriv hk hm hmp (hlo.trans h1)

/-- C68: a `PSDRosinRammler` asked in another basis whose moment exists is the reweighted distribution; sizes below 1e-40 m count as 0 and
sizes above 1e15 m are left out -/
theorem C68_PSDRosinRammler_basis {k m order n : ℝ} (hk : 0 < k) (hm : 0 < m) (hmn : 0 < m + (n - order)) (hn : n ≠ order) :
    ∃ D, PSDRosinRammler k m order = .ok D ∧ Reweighted D order n 1e-40 1e15 := by
  refine ⟨_, rfl, ?_⟩
  exact reweighted (s := ⟨order, 1e15, 0, false, 0, 0, 0, 0, _, _, _⟩) hn rfl (by norm_num) (by norm_num)
    (rosin_antiderivative hk hm hmn (by norm_num)) (rosin_integral_zero hk hm hmn)

/-! ### Gates, Gaudin and Schuhman -/

theorem ggs_integral_eval {dc m n d : ℝ} (hdc : 0 < dc) (hm : 0 < m) (hn : 0 ≤ n) (hd : 0 ≤ d) :
    pdf_Gates_Gaudin_Schuhman_basis_integral d dc m n = .ok (m / (m + n) * d ^ n * (d / dc) ^ m) := by
  have : 0 < m + n := by positivity
  unfold pdf_Gates_Gaudin_Schuhman_basis_integral
  rw [pdiv_ok this.ne', ppow_ok' hd hn, pdiv_ok hdc.ne']
  simp only [Py.ok_bind]
  rw [ppow_ok' (by positivity) hm.le]; rfl

theorem ggs_antiderivative {dc m p lo : ℝ} (hdc : 0 < dc) (hm : 0 < m) (hp : 0 ≤ p) (hlo : 0 ≤ lo) :
    Antiderivative (fun d => pdf_Gates_Gaudin_Schuhman_basis_integral d dc m p) (fun d => pdf_Gates_Gaudin_Schuhman d dc m)
      (fun d => m / (m + p) * d ^ p * (d / dc) ^ m) (fun d => m / d * (d / dc) ^ m) p lo dc where
  eval d h1 _ := ggs_integral_eval hdc hm hp (hlo.trans h1)
  cont := by
    have h1 : Continuous fun d : ℝ => d ^ p := continuous_id.rpow_const fun x => Or.inr hp
    have h2 : Continuous fun d : ℝ => (d / dc) ^ m := Continuous.rpow_const (by fun_prop) fun x => Or.inr hm.le
    exact ((continuous_const.mul h1).mul h2).continuousOn
  density d h1 h2 := by
    have hd : 0 < d := hlo.trans_lt h1
    refine ⟨?_, by positivity⟩
    unfold pdf_Gates_Gaudin_Schuhman
    rw [if_pos h2.le]; py_eval []
  deriv d h1 h2 := by
    have hd : 0 < d := hlo.trans_lt h1
    have hmp : 0 < m + p := by positivity
    have e1 := ((hasDerivAt_id d).div_const dc).rpow_const (p := m) (Or.inl (by simp only [id]; positivity))
    have e2 := ((hasDerivAt_rpow_const (x := d) (p := p) (Or.inl hd.ne')).const_mul (m / (m + p))).mul e1
    refine e2.congr_deriv ?_
    simp only [id]
    rw [rpow_sub_one (by positivity), rpow_sub_one (by positivity)]; field_simp; ring

/-- C68: a `PSDGatesGaudinSchuhman` asked in a higher basis is the reweighted distribution up to its largest size -/
theorem C68_PSDGatesGaudinSchuhman_basis {dc m order n : ℝ} (hdc : 0 < dc) (hm : 0 < m) (hn : order < n) :
    ∃ D, PSDGatesGaudinSchuhman dc m order = .ok D ∧ Reweighted D order n 0 dc := by
  refine ⟨_, rfl, ?_⟩
  exact reweighted (s := ⟨order, dc, 0, false, 0, 0, 0, 0, _, _, _⟩) hn.ne' rfl le_rfl hdc
    (ggs_antiderivative hdc hm (by dsimp only; linarith) le_rfl) (ggs_integral_eval hdc hm (by dsimp only; linarith) le_rfl)

/-- C68 (finding): beyond its largest size a `PSDGatesGaudinSchuhman` asked in a higher basis exceeds 1 without limit -/
theorem C68_PSDGatesGaudinSchuhman_basis_above_one {dc m order n d : ℝ} (hdc : 0 < dc) (hm : 0 < m) (hn : order < n) (hd : dc < d) :
    ∃ D, PSDGatesGaudinSchuhman dc m order = .ok D ∧ D.cdf d (some n) = .ok ((d / dc) ^ (m + (n - order))) ∧ 1 < (d / dc) ^ (m + (n - order)) := by
  have hp : 0 < n - order := by linarith
  have hd0 : 0 < d := hdc.trans hd
  have hr : 1 < d / dc := by rwa [lt_div_iff₀ hdc, one_mul]
  have hmp : 0 < m + (n - order) := by positivity
  refine ⟨_, rfl, ?_, one_lt_rpow hr hmp⟩
  have ez := ggs_integral_eval (n := n - order) hdc hm hp.le (le_refl 0)
  rw [zero_div, zero_rpow hm.ne', mul_zero] at ez
  have ed := ggs_integral_eval (n := n - order) hdc hm hp.le hd0.le
  have ec := ggs_integral_eval (n := n - order) hdc hm hp.le hdc.le
  rw [div_self hdc.ne', one_rpow, mul_one] at ec
  simp only [Dist.cdf, Dist.basisCdf, Dist.rebaseCdf, Dist.definite, if_neg hn.ne', ez, ed, ec, Py.ok_bind, Py.pure_eq, sub_zero]
  rw [pdiv_ok (by positivity)]
  simp only [Py.ok_bind]
  have e : m / (m + (n - order)) * d ^ (n - order) * (d / dc) ^ m / (m / (m + (n - order)) * dc ^ (n - order)) = (d / dc) ^ (m + (n - order)) := by
    rw [rpow_add (by positivity), div_rpow hd0.le hdc.le (n - order)]; field_simp
  rw [e, max_eq_left (by positivity)]; rfl

/-- C68 (finding): asked in any lower basis it raises ZeroDivisionError -/
theorem C68_PSDGatesGaudinSchuhman_lower_basis {dc m order n d : ℝ} (hdc : 0 < dc) (hm : 0 < m) (hn : n < order) (hd : 0 ≤ d) :
    ∃ D, PSDGatesGaudinSchuhman dc m order = .ok D ∧ D.cdf d (some n) = .error .zeroDivisionError := by
  refine ⟨_, rfl, ?_⟩
  have hp : n - order < 0 := by linarith
  have e0 : (0 : ℝ) ^ₚ (n - order) = .error .zeroDivisionError := by unfold ppow; simp [hn]
  have hz : pdf_Gates_Gaudin_Schuhman_basis_integral 0 dc m (n - order) = .error .zeroDivisionError := by
    unfold pdf_Gates_Gaudin_Schuhman_basis_integral
    by_cases h : m + (n - order) = 0
    · rw [h, pdiv_zero]; rfl
    · rw [pdiv_ok h, e0]; rfl
  have hfirst : pdf_Gates_Gaudin_Schuhman_basis_integral d dc m (n - order) = .error .zeroDivisionError ∨
      ∃ v, pdf_Gates_Gaudin_Schuhman_basis_integral d dc m (n - order) = .ok v := by
    rcases hd.eq_or_lt with rfl | hd
    · exact Or.inl hz
    · unfold pdf_Gates_Gaudin_Schuhman_basis_integral
      by_cases h : m + (n - order) = 0
      · left; rw [h, pdiv_zero]; rfl
      · right
        rw [pdiv_ok h, ppow_ok hd, pdiv_ok hdc.ne']; simp only [Py.ok_bind]
        rw [ppow_ok (by positivity)]; exact ⟨_, rfl⟩
  simp only [Dist.cdf, Dist.basisCdf, Dist.rebaseCdf, Dist.definite, if_neg hn.ne, hz]
  rcases hfirst with h | ⟨v, h⟩ <;> rw [h] <;> rfl

/-- C68 (finding): a truncated distribution asked in another basis still subtracts the cumulative values of its own basis, and so returns
negative cumulative values -/
theorem C68_truncated_basis_negative :
    ∃ D, PSDGatesGaudinSchuhman 1 1 0 (some (1 / 2)) = .ok D ∧ D.cdf 0.6 (some 3) = .ok (-0.7408) := by
  have ev : ∀ d : ℝ, 0 ≤ d → d ≤ 1 → cdf_Gates_Gaudin_Schuhman d 1 1 = .ok d := fun d h0 h1 => by
    unfold cdf_Gates_Gaudin_Schuhman
    rw [if_pos h1, pdiv_ok one_ne_zero]; simp only [Py.ok_bind]
    rw [ppow_ok' (by positivity) zero_le_one]; simp
  refine ⟨⟨0, 1, 1 / 2, true, 1 / 2, 1, 1, 1 / 2, fun d => pdf_Gates_Gaudin_Schuhman d 1 1, fun d => cdf_Gates_Gaudin_Schuhman d 1 1,
    fun d n => pdf_Gates_Gaudin_Schuhman_basis_integral d 1 1 n⟩, ?_, ?_⟩
  · simp only [PSDGatesGaudinSchuhman, construct, Option.isSome_some, true_or, if_true, Option.getD_none, Option.getD_some,
      ev 1 zero_le_one le_rfl, ev (1 / 2) (by norm_num) (by norm_num), Py.ok_bind]
    rfl
  · have e : ∀ d : ℝ, 0 ≤ d → pdf_Gates_Gaudin_Schuhman_basis_integral d 1 1 (3 - 0) = .ok (1 / 4 * d ^ (4 : ℕ)) := fun d h0 => by
      rw [ggs_integral_eval one_pos one_pos (by norm_num) h0, div_one, rpow_one, sub_zero, show (3 : ℝ) = (3 : ℕ) by norm_num, rpow_natCast]
      congr 1; norm_num; ring
    simp only [Dist.cdf, Dist.basisCdf, Dist.rebaseCdf, Dist.definite, e 0 le_rfl, e 1 zero_le_one, e 0.6 (by norm_num), Py.ok_bind, Py.pure_eq]
    rw [if_neg (by norm_num), pdiv_ok (by norm_num)]
    simp only [Py.ok_bind, if_true]
    rw [if_neg (by norm_num), if_neg (by norm_num), pdiv_ok (by norm_num)]
    norm_num

example : ∃ D, PSDRosinRammler 200 2 3 = .ok D ∧ Reweighted D 3 2 1e-40 1e15 :=
  C68_PSDRosinRammler_basis (by norm_num) (by norm_num) (by norm_num) (by norm_num)

example : ∃ D, PSDLognormal 5e-6 0.5 3 = .ok D ∧ Reweighted D 3 0 1e-80 (1e15 * 5e-6) :=
  C68_PSDLognormal_basis (by norm_num) (by norm_num) (by norm_num)

end Verif.Psd
