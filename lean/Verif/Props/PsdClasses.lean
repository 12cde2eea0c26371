import Verif.Props.Psd

/-! C68: the distribution classes, with and without truncation. -/

open Real MeasureTheory Filter Topology

noncomputable section

namespace Verif.Psd

theorem basisCdf_own {s : Dist} {n : Option ℝ} (hn : n = none ∨ n = some s.order) (d : ℝ) : s.basisCdf d n = s.rawCdf d := by
  rcases hn with rfl | rfl <;> simp [Dist.basisCdf]

theorem basisPdf_own {s : Dist} {n : Option ℝ} (hn : n = none ∨ n = some s.order) (d : ℝ) : s.basisPdf d n = s.rawPdf d := by
  unfold Dist.basisPdf
  rcases hn with rfl | rfl <;> cases s.rawPdf d <;> simp

/-- what an untruncated distribution built from raw functions satisfies -/
theorem untruncated {s : Dist} {n : Option ℝ} {corner : ℝ → Prop} (hn : n = none ∨ n = some s.order)
    (hF : IsDistribution s.rawCdf s.rawPdf corner) (ht : s.truncated = false) : IsDistribution (s.cdf · n) (s.pdf · n) corner := by
  obtain ⟨G, h1, h2, h3, h4, h5, h6, h7, h8⟩ := hF
  refine ⟨G, fun d h0 => ?_, h2, h3, h4, h5, h6, h7, fun d h0 hc => ?_⟩
  · simp only [Dist.cdf, basisCdf_own hn, h1 d h0, Py.ok_bind, ht, max_eq_left (h4 d h0).1]; rfl
  · obtain ⟨g, hg1, hg2, hg3⟩ := h8 d h0 hc
    refine ⟨g, ?_, hg2, hg3⟩
    simp only [Dist.pdf, basisPdf_own hn, hg1, Py.ok_bind, ht, max_eq_left hg2]; rfl

/-- what a truncated distribution built from raw functions satisfies -/
theorem truncated {s : Dist} {n : Option ℝ} {corner : ℝ → Prop} (hn : n = none ∨ n = some s.order)
    (hF : IsDistribution s.rawCdf s.rawPdf corner) (ht : s.truncated = true) (hlo : 0 ≤ s.d_min) (hlt : s.d_min < s.d_max)
    (ha : s.rawCdf s.d_min = .ok s.cdf_d_min) (hb : s.rawCdf s.d_max = .ok s.cdf_d_max) (hab : s.cdf_d_min < s.cdf_d_max) :
    IsDistribution (s.cdf · n) (s.pdf · n) (fun d => corner d ∨ d = s.d_min ∨ d = s.d_max) ∧
    (∀ d, 0 ≤ d → d ≤ s.d_min → s.cdf d n = .ok 0) ∧ (∀ d, s.d_max ≤ d → s.cdf d n = .ok 1) ∧
    (∀ d, 0 < d → ¬ corner d → (d < s.d_min ∨ s.d_max < d) → s.pdf d n = .ok 0) := by
  obtain ⟨G, h1, h2, h3, h4, h5, h6, h7, h8⟩ := hF
  have hhi : 0 ≤ s.d_max := hlo.trans hlt.le
  have hGa : G s.d_min = s.cdf_d_min := Except.ok.inj ((h1 _ hlo).symm.trans ha)
  have hGb : G s.d_max = s.cdf_d_max := Except.ok.inj ((h1 _ hhi).symm.trans hb)
  have hpos : 0 < s.cdf_d_max - s.cdf_d_min := by linarith
  have hdiv : ∀ x : ℝ, x /ₚ (s.cdf_d_max - s.cdf_d_min) = .ok (x / (s.cdf_d_max - s.cdf_d_min)) := fun x => pdiv_ok hpos.ne'
  have hlow : ∀ d, 0 ≤ d → d ≤ s.d_min → s.cdf d n = .ok 0 := fun d h0 hd => by
    simp only [Dist.cdf, basisCdf_own hn, h1 d h0, Py.ok_bind, ht, hd, if_true]
  have hhigh : ∀ d, s.d_max ≤ d → s.cdf d n = .ok 1 := fun d hd => by
    simp only [Dist.cdf, basisCdf_own hn, h1 d (hhi.trans hd), Py.ok_bind, ht, ge_iff_le, hd, if_true,
      show ¬ d ≤ s.d_min from by linarith, if_false]
  set clip : ℝ → ℝ := fun d => max s.d_min (min d s.d_max) with hclip
  have hc0 : ∀ d, 0 ≤ clip d := fun d => hlo.trans (le_max_left _ _)
  have hc1 : ∀ d, d ≤ s.d_min → clip d = s.d_min := fun d h => max_eq_left ((min_le_left _ _).trans h)
  have hc2 : ∀ d, s.d_max ≤ d → clip d = s.d_max := fun d h => by simp only [hclip]; rw [min_eq_right h, max_eq_right hlt.le]
  have hc3 : ∀ d, s.d_min ≤ d → d ≤ s.d_max → clip d = d := fun d h h' => by simp only [hclip]; rw [min_eq_left h', max_eq_right h]
  have hcm : Monotone clip := fun x y h => max_le_max le_rfl (min_le_min h le_rfl)
  have hcontG : ContinuousOn G (Set.Ici 0) := by
    intro d (hd : 0 ≤ d)
    rcases hd.eq_or_lt with rfl | hd
    · exact h7
    · exact (h6 d hd).continuousWithinAt
  have hcc : Continuous clip := by simp only [hclip]; fun_prop
  have hcont : Continuous fun d => (G (clip d) - s.cdf_d_min) / (s.cdf_d_max - s.cdf_d_min) :=
    ((hcontG.comp_continuous hcc hc0).sub continuous_const).div_const _
  refine ⟨⟨fun d => (G (clip d) - s.cdf_d_min) / (s.cdf_d_max - s.cdf_d_min), fun d h0 => ?_, ?_, ?_, fun d _ => ?_, ?_,
    fun d _ => hcont.continuousAt, hcont.continuousWithinAt, fun d h0 hc => ?_⟩, hlow, hhigh, fun d h0 hc hd => ?_⟩
  · beta_reduce
    rcases le_or_gt d s.d_min with hd | hd
    · rw [hlow d h0 hd, hc1 d hd, hGa, sub_self, zero_div]
    · rcases le_or_gt s.d_max d with hd' | hd'
      · rw [hhigh d hd', hc2 d hd', hGb, div_self hpos.ne']
      · simp only [Dist.cdf, basisCdf_own hn, h1 d h0, Py.ok_bind, ht, ge_iff_le, not_le.mpr hd, not_le.mpr hd', if_true, if_false, hdiv,
          max_eq_left (h4 d h0).1, hc3 d hd.le hd'.le]
  · beta_reduce; rw [hc1 0 hlo, hGa, sub_self, zero_div]
  · intro x hx y hy hxy
    have := h3 (hc0 x) (hc0 y) (hcm hxy)
    beta_reduce; gcongr
  · have e1 := h3 hlo (hc0 d) (le_max_left s.d_min (min d s.d_max))
    have e2 := h3 (hc0 d) hhi (max_le hlt.le (min_le_right d s.d_max))
    rw [hGa] at e1; rw [hGb] at e2
    beta_reduce
    exact ⟨div_nonneg (by linarith) hpos.le, by rw [div_le_one hpos]; linarith⟩
  · refine tendsto_const_nhds.congr' ?_
    filter_upwards [eventually_ge_atTop s.d_max] with d hd
    rw [hc2 d hd, hGb, div_self hpos.ne']
  · push Not at hc
    obtain ⟨hc, hne1, hne2⟩ := hc
    obtain ⟨g, hg1, hg2, hg3⟩ := h8 d h0 hc
    rcases lt_or_gt_of_ne hne1 with hd | hd
    · refine ⟨0, ?_, le_rfl, ?_⟩
      · simp only [Dist.pdf, basisPdf_own hn, hg1, Py.ok_bind, ht, hd, true_or, if_true]
      · refine (hasDerivAt_const d (0 : ℝ)).congr_of_eventuallyEq ?_
        filter_upwards [eventually_lt_nhds hd] with y hy
        rw [hc1 y (le_of_lt hy), hGa, sub_self, zero_div]
    · rcases lt_or_gt_of_ne hne2 with hd' | hd'
      · refine ⟨g / (s.cdf_d_max - s.cdf_d_min), ?_, by positivity, ?_⟩
        · simp only [Dist.pdf, basisPdf_own hn, hg1, Py.ok_bind, ht, gt_iff_lt, not_lt.mpr hd.le, not_lt.mpr hd'.le, or_self, if_true, if_false, hdiv,
            max_eq_left hg2]
        · refine ((hg3.sub_const s.cdf_d_min).div_const (s.cdf_d_max - s.cdf_d_min)).congr_of_eventuallyEq ?_
          filter_upwards [eventually_gt_nhds hd, eventually_lt_nhds hd'] with y hy hy'
          rw [hc3 y (le_of_lt hy) (le_of_lt hy')]
      · refine ⟨0, ?_, le_rfl, ?_⟩
        · simp only [Dist.pdf, basisPdf_own hn, hg1, Py.ok_bind, ht, gt_iff_lt, hd', or_true, if_true]
        · refine (hasDerivAt_const d (1 : ℝ)).congr_of_eventuallyEq ?_
          filter_upwards [eventually_gt_nhds hd'] with y hy
          rw [hc2 y (le_of_lt hy), hGb, div_self hpos.ne']
  · obtain ⟨g, hg1, hg2, hg3⟩ := h8 d h0 hc
    simp only [Dist.pdf, basisPdf_own hn, hg1, Py.ok_bind, ht, gt_iff_lt, hd, if_true]

/-! ### Specification of the classes -/

/-- the object `r` evaluates to is the raw distribution `F`, `f` restricted to the sizes between `lo` and `hi`, 0 below and 1 above, when asked in
its own basis -/
def Restricted (r : Py Dist) (order lo hi : ℝ) (corner : ℝ → Prop) : Prop :=
  ∃ s, r = .ok s ∧ ∀ n : Option ℝ, n = none ∨ n = some order →
    IsDistribution (s.cdf · n) (s.pdf · n) (fun d => corner d ∨ d = lo ∨ d = hi) ∧
    (∀ d, 0 ≤ d → d ≤ lo → s.cdf d n = .ok 0) ∧ (∀ d, hi ≤ d → s.cdf d n = .ok 1) ∧
    (∀ d, 0 < d → ¬ corner d → (d < lo ∨ hi < d) → s.pdf d n = .ok 0)

/-- the object `r` evaluates to is an untruncated distribution -/
def Whole (r : Py Dist) (order : ℝ) (corner : ℝ → Prop) : Prop :=
  ∃ s, r = .ok s ∧ ∀ n : Option ℝ, n = none ∨ n = some order → IsDistribution (s.cdf · n) (s.pdf · n) corner

theorem construct_whole {order dx : ℝ} {F f : ℝ → Py ℝ} {I : ℝ → ℝ → Py ℝ} {corner : ℝ → Prop} (hF : IsDistribution F f corner) :
    Whole (construct order dx none none f F I) order corner :=
  ⟨_, rfl, fun n hn => untruncated (s := ⟨order, dx, 0, false, 0, 0, 0, 0, f, F, I⟩) hn hF rfl⟩

theorem construct_restricted {order dx a b : ℝ} {lo hi : Option ℝ} {F f : ℝ → Py ℝ} {I : ℝ → ℝ → Py ℝ} {corner : ℝ → Prop} (hF : IsDistribution F f corner)
    (hs : lo ≠ none ∨ hi ≠ none) (hlo : 0 ≤ lo.getD 0) (hlt : lo.getD 0 < hi.getD dx) (ha : F (lo.getD 0) = .ok a) (hb : F (hi.getD dx) = .ok b)
    (hab : a < b) : Restricted (construct order dx lo hi f F I) order (lo.getD 0) (hi.getD dx) corner := by
  have hs' : lo.isSome ∨ hi.isSome := by simpa [Option.isSome_iff_ne_none] using hs
  refine ⟨⟨order, dx, lo.getD 0, true, lo.getD 0, hi.getD dx, b, a, f, F, I⟩, ?_, fun n hn => ?_⟩
  · unfold construct; rw [if_pos hs']; simp only [ha, hb, Py.ok_bind]; rfl
  · exact truncated (s := ⟨order, dx, lo.getD 0, true, lo.getD 0, hi.getD dx, b, a, f, F, I⟩) hn hF rfl hlo hlt ha hb hab

/-! ### The three classes -/

/-- C68: `PSDLognormal` -/
theorem C68_PSDLognormal {dc s order : ℝ} (hd : 0 < dc) (hs : 0 < s) : Whole (PSDLognormal dc s order) order fun _ => False :=
  construct_whole (C68_lognormal hd hs)

/-- C68: a truncated `PSDLognormal` -/
theorem C68_PSDLognormal_truncated {dc s order : ℝ} {lo hi : Option ℝ} (hd : 0 < dc) (hs : 0 < s) (hn : lo ≠ none ∨ hi ≠ none)
    (hlo : 0 ≤ lo.getD 0) (hlt : lo.getD 0 < hi.getD (1e15 * dc)) :
    Restricted (PSDLognormal dc s order lo hi) order (lo.getD 0) (hi.getD (1e15 * dc)) fun _ => False := by
  have e : hi.getD (hi.getD (1e15 * dc)) = hi.getD (1e15 * dc) := by cases hi <;> rfl
  have h2 : 0 < √(2 : ℝ) := by positivity
  unfold PSDLognormal
  have := construct_restricted (order := order) (dx := hi.getD (1e15 * dc)) (lo := lo) (hi := hi)
    (I := fun d n => pdf_lognormal_basis_integral d dc s n) (C68_lognormal hd hs) hn hlo (by rwa [e])
    (cdf_lognormal_eval hd hs) (by rw [e]; exact cdf_lognormal_eval hd hs) (by
      generalize hi.getD (1e15 * dc) = H at *
      generalize lo.getD 0 = L at *
      unfold lognormalG
      rw [if_pos (by linarith : 0 < H)]
      split_ifs with h0
      · have h1 : log (L / dc) < log (H / dc) := log_lt_log (by positivity) (by gcongr)
        have h3 : log (L / dc) / (s * √2) < log (H / dc) / (s * √2) := by gcongr
        have := erf_strictMono h3
        linarith
      · linarith [neg_one_lt_erf (log (H / dc) / (s * √2))])
  rwa [e] at this

/-- C68: `PSDRosinRammler` -/
theorem C68_PSDRosinRammler {k m order : ℝ} (hk : 0 < k) (hm : 0 < m) : Whole (PSDRosinRammler k m order) order fun _ => False :=
  construct_whole (C68_Rosin_Rammler hk hm)

/-- C68: a truncated `PSDRosinRammler` -/
theorem C68_PSDRosinRammler_truncated {k m order : ℝ} {lo hi : Option ℝ} (hk : 0 < k) (hm : 0 < m) (hn : lo ≠ none ∨ hi ≠ none)
    (hlo : 0 ≤ lo.getD 0) (hlt : lo.getD 0 < hi.getD 1e15) :
    Restricted (PSDRosinRammler k m order lo hi) order (lo.getD 0) (hi.getD 1e15) fun _ => False := by
  have e : hi.getD (hi.getD 1e15) = hi.getD (1e15 : ℝ) := by cases hi <;> rfl
  have ev : ∀ d, 0 ≤ d → cdf_Rosin_Rammler d k m = .ok (1 - exp (-k * d ^ m)) := fun d h0 => by
    unfold cdf_Rosin_Rammler; rw [ppow_ok' h0 hm.le]; rfl
  unfold PSDRosinRammler
  have := construct_restricted (order := order) (dx := hi.getD 1e15) (lo := lo) (hi := hi)
    (I := fun d n => pdf_Rosin_Rammler_basis_integral d k m n) (C68_Rosin_Rammler hk hm) hn hlo (by rwa [e])
    (ev _ hlo) (by rw [e]; exact ev _ (hlo.trans hlt.le)) (by
      have h1 := rpow_lt_rpow hlo hlt hm
      have h2 : exp (-k * hi.getD 1e15 ^ m) < exp (-k * lo.getD 0 ^ m) := exp_lt_exp.mpr (by nlinarith)
      linarith)
  rwa [e] at this

/-- C68: `PSDGatesGaudinSchuhman` -/
theorem C68_PSDGatesGaudinSchuhman {dc m order : ℝ} (hd : 0 < dc) (hm : 0 < m) :
    Whole (PSDGatesGaudinSchuhman dc m order) order fun d => d = dc := construct_whole (C68_Gates_Gaudin_Schuhman hd hm)

/-- C68: a `PSDGatesGaudinSchuhman` truncated from below -/
theorem C68_PSDGatesGaudinSchuhman_truncated {dc m order lo : ℝ} (hm : 0 < m) (hlo : 0 ≤ lo) (hlt : lo < dc) :
    Restricted (PSDGatesGaudinSchuhman dc m order (some lo)) order lo dc fun d => d = dc := by
  have hd : 0 < dc := hlo.trans_lt hlt
  have ev : ∀ d, 0 ≤ d → d ≤ dc → cdf_Gates_Gaudin_Schuhman d dc m = .ok ((d / dc) ^ m) := fun d h0 h1 => by
    unfold cdf_Gates_Gaudin_Schuhman
    rw [if_pos h1]; py_eval []; exact ppow_ok' (by positivity) hm.le
  exact construct_restricted (lo := some lo) (hi := none) (C68_Gates_Gaudin_Schuhman hd hm) (Or.inl (by simp)) hlo hlt (ev _ hlo hlt.le) (ev _ hd.le le_rfl)
    (rpow_lt_rpow (by positivity) (by simpa using (div_lt_div_iff_of_pos_right hd).mpr hlt) hm)

/-- C68 (finding): `PSDGatesGaudinSchuhman` cannot be given a maximum diameter -/
theorem C68_PSDGatesGaudinSchuhman_d_max (dc m order : ℝ) (lo : Option ℝ) (hi : ℝ) :
    PSDGatesGaudinSchuhman dc m order lo (some hi) = .error .attributeError := rfl

example : Restricted (PSDLognormal 5e-6 0.5 3 (some 1e-6) (some 2e-5)) 3 1e-6 2e-5 fun _ => False :=
  C68_PSDLognormal_truncated (lo := some 1e-6) (hi := some 2e-5) (by norm_num) (by norm_num) (Or.inl (by simp)) (by norm_num) (by norm_num)

example : Restricted (PSDGatesGaudinSchuhman 1e-3 2.3 3 (some 1e-4)) 3 1e-4 1e-3 fun d => d = 1e-3 :=
  C68_PSDGatesGaudinSchuhman_truncated (by norm_num) (by norm_num) (by norm_num)

end Verif.Psd
