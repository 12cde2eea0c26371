import Verif.Props.PsdBasis
import Mathlib.Topology.Order.IntermediateValue

/-! C68: interval fractions, fractions of a list of sizes, percentiles, and mean sizes of continuous distributions. -/

open Real MeasureTheory Filter Topology

noncomputable section

namespace Verif.Psd

/-! ### Interval fractions -/

/-- C68: the fraction between two sizes is the difference of the cumulative values -/
theorem C68_delta_cdf (s : Dist) (n : Option ℝ) {a b x y : ℝ} (ha : s.cdf a n = .ok x) (hb : s.cdf b n = .ok y) :
    s.delta_cdf a b n = .ok (y - x) := by
  simp only [Dist.delta_cdf, ha, hb, Py.ok_bind]; rfl

/-- C68: fractions of adjacent intervals add up to the fraction of the union, in any basis and for any three sizes -/
theorem C68_delta_cdf_additive (s : Dist) (n : Option ℝ) {a b c x y : ℝ} (h1 : s.delta_cdf a b n = .ok x) (h2 : s.delta_cdf b c n = .ok y) :
    s.delta_cdf a c n = .ok (x + y) := by
  have key : ∀ u v w, s.delta_cdf u v n = .ok w → ∃ p q, s.cdf u n = .ok p ∧ s.cdf v n = .ok q ∧ w = q - p := by
    intro u v w h
    obtain ⟨q, hq, h⟩ := Py.bind_eq_ok.mp h
    obtain ⟨p, hp, h⟩ := Py.bind_eq_ok.mp h
    exact ⟨p, q, hp, hq, (Except.ok.inj h).symm⟩
  obtain ⟨p, q, hp, hq, rfl⟩ := key _ _ _ h1
  obtain ⟨q', r, hq', hr, rfl⟩ := key _ _ _ h2
  obtain rfl := Except.ok.inj (hq.symm.trans hq')
  rw [C68_delta_cdf s n hp hr]; congr 1; ring

theorem mapM_ok {α : Type} {f : α → Py ℝ} {G : α → ℝ} (l : List α) (h : ∀ x ∈ l, f x = .ok (G x)) : l.mapM f = .ok (l.map G) := by
  induction l with
  | nil => rfl
  | cons a l ih =>
    rw [List.mapM_cons, h a (by simp), ih fun x hx => h x (by simp [hx])]; rfl

theorem diff1_cons2 (a b : ℝ) (l : List ℝ) : Seq.diff1 (a :: b :: l) = (b - a) :: Seq.diff1 (b :: l) := by
  simp [Seq.diff1, List.range_succ_eq_map, Function.comp_def]

theorem sum_diff1 (a : ℝ) (l : List ℝ) : (Seq.diff1 (a :: l)).sum = (a :: l).getLast (by simp) - a := by
  induction l generalizing a with
  | nil => simp [Seq.diff1]
  | cons b l ih => rw [diff1_cons2, List.sum_cons, ih]; simp

theorem diff1_nonneg (l : List ℝ) (h : l.Pairwise (· ≤ ·)) : ∀ x ∈ Seq.diff1 l, 0 ≤ x := by
  induction l with
  | nil => simp [Seq.diff1]
  | cons a l ih =>
    cases l with
    | nil => simp [Seq.diff1]
    | cons b l =>
      rw [diff1_cons2]
      have h1 : a ≤ b := (List.pairwise_cons.mp h).1 b (by simp)
      rintro x (_ | ⟨_, hx⟩)
      · linarith
      · exact ih (List.pairwise_cons.mp h).2 x hx

/-- C68: over ascending sizes the fractions of a distribution are not negative and add up to the cumulative value of the largest size; there is
one for each size, and the first ones up to any size add up to the cumulative value of that size -/
theorem C68_fractions_discrete {s : Dist} {n : Option ℝ} {corner : ℝ → Prop} (hD : IsDistribution (s.cdf · n) (s.pdf · n) corner)
    {d0 : ℝ} {ds : List ℝ} (h0 : 0 ≤ d0) (hs : (d0 :: ds).Pairwise (· ≤ ·)) :
    ∃ fs, s.fractions_discrete (d0 :: ds) n = .ok fs ∧ fs.length = (d0 :: ds).length ∧ (∀ f ∈ fs, 0 ≤ f) ∧
      s.cdf ((d0 :: ds).getLast (by simp)) n = .ok fs.sum ∧ fs.sum ≤ 1 := by
  obtain ⟨G, h1, h2, h3, h4, -⟩ := hD
  have hpos : ∀ x ∈ d0 :: ds, 0 ≤ x := by
    rintro x (_ | ⟨_, hx⟩)
    · exact h0
    · exact h0.trans ((List.pairwise_cons.mp hs).1 x hx)
  have hmap : (d0 :: ds).mapM (fun d => s.cdf d n) = .ok ((d0 :: ds).map G) := mapM_ok _ fun x hx => h1 x (hpos x hx)
  have hGs : ((d0 :: ds).map G).Pairwise (· ≤ ·) := by
    rw [List.pairwise_map]
    exact hs.imp_of_mem fun {a b} ha hb hab => h3 (hpos a ha) (hpos b hb) hab
  have hsum : (G d0 :: Seq.diff1 ((d0 :: ds).map G)).sum = G ((d0 :: ds).getLast (by simp)) := by
    have e : (G d0 :: ds.map G).getLast (by simp) = G ((d0 :: ds).getLast (by simp)) := List.getLast_map (f := G) (l := d0 :: ds) (by simp)
    rw [List.sum_cons, List.map_cons, sum_diff1, e]; ring
  refine ⟨G d0 :: Seq.diff1 ((d0 :: ds).map G), ?_, ?_, ?_, ?_, ?_⟩
  · unfold Dist.fractions_discrete
    rw [hmap]; rfl
  · simp [Seq.diff1]
  · rintro f (_ | ⟨_, hf⟩)
    · exact (h4 d0 h0).1
    · exact diff1_nonneg _ hGs f hf
  · rw [hsum]; exact h1 _ (hpos _ (List.getLast_mem _))
  · rw [hsum]; exact (h4 _ (hpos _ (List.getLast_mem _))).2

/-! ### Percentiles -/

/-- what is assumed of the root finder: given a continuous function that changes sign over the bracket it returns a zero in the bracket -/
def FindsRoots (brenth : (ℝ → Py ℝ) → ℝ → ℝ → Py ℝ) : Prop :=
  ∀ (f : ℝ → Py ℝ) (g : ℝ → ℝ) (a b : ℝ), a ≤ b → ContinuousOn g (Set.Icc a b) → (∀ x ∈ Set.Icc a b, f x = .ok (g x)) → g a ≤ 0 → 0 ≤ g b →
    ∃ x ∈ Set.Icc a b, brenth f a b = .ok x ∧ f x = .ok 0

/-- such a root finder exists -/
theorem exists_findsRoots : ∃ b, FindsRoots b := by
  classical
  refine ⟨fun f a b => if h : ∃ x ∈ Set.Icc a b, f x = .ok 0 then .ok h.choose else .error .unconvergedError, fun f g a b hab hc hf ha hb => ?_⟩
  have : ∃ x ∈ Set.Icc a b, f x = .ok 0 := by
    obtain ⟨x, hx, h0⟩ := intermediate_value_Icc hab hc (⟨ha, hb⟩ : (0 : ℝ) ∈ Set.Icc (g a) (g b))
    exact ⟨x, hx, by rw [hf x hx, h0]⟩
  refine ⟨this.choose, this.choose_spec.1, ?_, this.choose_spec.2⟩
  beta_reduce; rw [dif_pos this]

/-- C68: the percentile of a fraction strictly between 0 and 1 is a size with that cumulative value, whenever the search limits of the
distribution bracket it -/
theorem C68_dn {brenth : (ℝ → Py ℝ) → ℝ → ℝ → Py ℝ} (hb : FindsRoots brenth) {eps : ℝ} {s : Dist} {n : Option ℝ} {corner : ℝ → Prop}
    (hD : IsDistribution (s.cdf · n) (s.pdf · n) corner) {fraction a b : ℝ} (h0 : 0 < fraction) (h1 : fraction < 1) (hmin : 0 ≤ s.d_minimum)
    (hle : s.d_minimum ≤ s.d_excessive) (ha : s.cdf s.d_minimum n = .ok a) (hb' : s.cdf s.d_excessive n = .ok b) (hfa : a ≤ fraction) (hfb : fraction ≤ b) :
    ∃ d, s.dn brenth eps fraction n = .ok d ∧ s.d_minimum ≤ d ∧ d ≤ s.d_excessive ∧ s.cdf d n = .ok fraction := by
  obtain ⟨G, e1, e2, e3, e4, -, e6, e7, -⟩ := hD
  have hc : ContinuousOn G (Set.Ici 0) := by
    intro d (hd : 0 ≤ d)
    rcases hd.eq_or_lt with rfl | hd
    · exact e7
    · exact (e6 d hd).continuousWithinAt
  have hGa : G s.d_minimum = a := Except.ok.inj ((e1 _ hmin).symm.trans ha)
  have hGb : G s.d_excessive = b := Except.ok.inj ((e1 _ (hmin.trans hle)).symm.trans hb')
  obtain ⟨x, hx, hroot, hz⟩ := hb (fun d => do
    let c : ℝ ← s.cdf d n
    return c - fraction) (fun d => G d - fraction) s.d_minimum s.d_excessive hle
    ((hc.mono fun y hy => hmin.trans hy.1).sub continuousOn_const)
    (fun x hx => by
      have := e1 x (hmin.trans hx.1)
      beta_reduce at this ⊢; rw [this]; rfl) (by beta_reduce; linarith) (by beta_reduce; linarith)
  refine ⟨x, ?_, hx.1, hx.2, ?_⟩
  · unfold Dist.dn
    simp only [h1.ne, if_false, not_lt.mpr h0.le, h0.ne', gt_iff_lt, not_lt.mpr h1.le]
    exact hroot
  · have := e1 x (hmin.trans hx.1)
    beta_reduce at this hz
    rw [this] at hz ⊢
    have hz' := Except.ok.inj hz
    rw [sub_eq_zero.mp hz']

/-- C68: the percentile of 0 is the lower end of the distribution; fractions outside [0, 1] are errors; 1 is read as one machine epsilon less -/
theorem C68_dn_ends (brenth : (ℝ → Py ℝ) → ℝ → ℝ → Py ℝ) {eps : ℝ} (s : Dist) (n : Option ℝ) (he : eps ≠ 0) :
    s.dn brenth eps 0 n = .ok (if s.truncated then s.d_min else 0) ∧
    (∀ f, f < 0 ∨ 1 < f → s.dn brenth eps f n = .error .valueError) ∧ s.dn brenth eps 1 n = s.dn brenth eps (1 - eps) n := by
  refine ⟨?_, ?_, ?_⟩
  · simp [Dist.dn]
  · rintro f (h | h)
    · have : f ≠ 1 := by rintro rfl; linarith
      simp [Dist.dn, h, this]
    · have h1 : f ≠ 1 := h.ne'
      have h2 : ¬ f < 0 := by linarith
      have h3 : f ≠ 0 := by rintro rfl; linarith
      simp [Dist.dn, h, h1, h2, h3]
  · have : (1 : ℝ) - eps ≠ 1 := by intro h; exact he (by linarith)
    simp [Dist.dn, this]

/-- C68: for a truncated distribution the bracket always holds: every fraction has a percentile -/
theorem C68_dn_truncated {brenth : (ℝ → Py ℝ) → ℝ → ℝ → Py ℝ} (hb : FindsRoots brenth) {eps dc sd order lo hi fraction : ℝ} (hdc : 0 < dc) (hs : 0 < sd)
    (hlo : 0 ≤ lo) (hlt : lo < hi) (h0 : 0 < fraction) (h1 : fraction < 1) :
    ∃ D d, PSDLognormal dc sd order (some lo) (some hi) = .ok D ∧ D.dn brenth eps fraction = .ok d ∧ lo ≤ d ∧ d ≤ hi ∧ D.cdf d = .ok fraction := by
  obtain ⟨D, hD, h⟩ := C68_PSDLognormal_truncated (order := order) (lo := some lo) (hi := some hi) hdc hs (Or.inl (by simp)) hlo hlt
  obtain ⟨a1, a2, a3, -⟩ := h none (Or.inl rfl)
  have hmm : D.d_minimum = lo ∧ D.d_excessive = hi := by
    have hD' := hD
    simp only [PSDLognormal, construct, Option.isSome_some, true_or, if_true, Option.getD_some, cdf_lognormal_eval hdc hs, Py.ok_bind] at hD'
    rw [← Except.ok.inj hD']; exact ⟨rfl, rfl⟩
  simp only [Option.getD_some] at a2 a3
  obtain ⟨d, b1, b2, b3, b4⟩ := C68_dn (eps := eps) hb a1 h0 h1 (by rw [hmm.1]; exact hlo) (by rw [hmm.1, hmm.2]; exact hlt.le)
    (a2 _ (by rw [hmm.1]; exact hlo) (by rw [hmm.1])) (a3 _ (by rw [hmm.2])) h0.le h1.le
  rw [hmm.1] at b2; rw [hmm.2] at b3
  exact ⟨D, d, hD, b1, b2, b3, b4⟩

/-! ### Mean sizes of continuous distributions -/

theorem moment_between {I I' f : ℝ → Py ℝ} {J J' g : ℝ → ℝ} {p q lo hi A B : ℝ} (hlo : 0 ≤ lo) (hlt : lo < hi) (hp : Antiderivative I f J g p lo hi)
    (hq : Antiderivative I' f J' g q lo hi) (hAB : ∀ d, lo < d → d < hi → A ≤ d ^ (p - q) ∧ d ^ (p - q) ≤ B) :
    A * (J' hi - J' lo) ≤ J hi - J lo ∧ J hi - J lo ≤ B * (J' hi - J' lo) := by
  have key : ∀ c : ℝ, ∀ d, lo < d → d < hi → HasDerivAt (fun d => J d - c * J' d) (d ^ q * g d * (d ^ (p - q) - c)) d := fun c d h1 h2 => by
    have hd : 0 < d := hlo.trans_lt h1
    refine ((hp.deriv d h1 h2).sub ((hq.deriv d h1 h2).const_mul c)).congr_deriv ?_
    have : d ^ p = d ^ q * d ^ (p - q) := by rw [← rpow_add hd]; congr 1; ring
    rw [this]; ring
  have hpos : ∀ d, lo < d → d < hi → 0 < d ^ q * g d := fun d h1 h2 => by
    have hd : 0 < d := hlo.trans_lt h1
    have := (hp.density d h1 h2).2
    positivity
  constructor
  · have hm : MonotoneOn (fun d => J d - A * J' d) (Set.Icc lo hi) := by
      refine monotoneOn_of_deriv_nonneg (convex_Icc _ _) (hp.cont.sub (hq.cont.const_smul A)) (fun x hx => ?_) fun x hx => ?_ <;> rw [interior_Icc] at hx
      · exact (key A x hx.1 hx.2).differentiableAt.differentiableWithinAt
      · rw [(key A x hx.1 hx.2).deriv]
        exact mul_nonneg (hpos x hx.1 hx.2).le (by linarith [(hAB x hx.1 hx.2).1])
    have := hm ⟨le_rfl, hlt.le⟩ ⟨hlt.le, le_rfl⟩ hlt.le
    beta_reduce at this; linarith
  · have hm : AntitoneOn (fun d => J d - B * J' d) (Set.Icc lo hi) := by
      refine antitoneOn_of_deriv_nonpos (convex_Icc _ _) (hp.cont.sub (hq.cont.const_smul B)) (fun x hx => ?_) fun x hx => ?_ <;> rw [interior_Icc] at hx
      · exact (key B x hx.1 hx.2).differentiableAt.differentiableWithinAt
      · rw [(key B x hx.1 hx.2).deriv]
        exact mul_nonpos_of_nonneg_of_nonpos (hpos x hx.1 hx.2).le (by linarith [(hAB x hx.1 hx.2).2])
    have := hm ⟨le_rfl, hlt.le⟩ ⟨hlt.le, le_rfl⟩ hlt.le
    beta_reduce at this; linarith

/-- what `mean_size` uses for two equal exponents -/
def nudge (p q : ℝ) : ℝ × ℝ := if p = q then (p - 1e-9, q + 1e-9) else (p, q)

theorem nudge_ne (p q : ℝ) : (nudge p q).1 ≠ (nudge p q).2 := by
  unfold nudge
  split_ifs with h
  · subst h; dsimp only; norm_num; linarith
  · exact h

theorem mean_between_sizes {s : Dist} {p q lo : ℝ} {J J' g : ℝ → ℝ} (hlo : 0 < lo) (hlt : lo < s.d_excessive)
    (hp : Antiderivative (s.rawIntegral · ((nudge p q).1 - s.order)) s.rawPdf J g ((nudge p q).1 - s.order) lo s.d_excessive)
    (hq : Antiderivative (s.rawIntegral · ((nudge p q).2 - s.order)) s.rawPdf J' g ((nudge p q).2 - s.order) lo s.d_excessive)
    (hp0 : s.rawIntegral s.d_minimum ((nudge p q).1 - s.order) = .ok (J lo))
    (hq0 : s.rawIntegral s.d_minimum ((nudge p q).2 - s.order) = .ok (J' lo)) :
    ∃ v, s.mean_size p q = .ok v ∧ lo ≤ v ∧ v ≤ s.d_excessive := by
  have hne := nudge_ne p q
  obtain ⟨P, Q⟩ : ∃ P : ℝ, ∃ Q : ℝ, (nudge p q).1 = P ∧ (nudge p q).2 = Q := ⟨_, _, rfl, rfl⟩
  have e1 : (if p = q then p - 1e-9 else p) = (nudge p q).1 := by unfold nudge; split_ifs <;> rfl
  have e2 : (if p = q then q + 1e-9 else q) = (nudge p q).2 := by unfold nudge; split_ifs <;> rfl
  generalize (nudge p q).1 = p' at *
  generalize (nudge p q).2 = q' at *
  have hhi : 0 < s.d_excessive := hlo.trans hlt
  have hDq : 0 < J' s.d_excessive - J' lo := sub_pos.mpr (hq.strictMono hlo.le ⟨le_rfl, hlt.le⟩ ⟨hlt.le, le_rfl⟩ hlt)
  have hDp : 0 < J s.d_excessive - J lo := sub_pos.mpr (hp.strictMono hlo.le ⟨le_rfl, hlt.le⟩ ⟨hlt.le, le_rfl⟩ hlt)
  have hr : p' - q' ≠ 0 := sub_ne_zero.mpr hne
  have hev : s.mean_size p q = .ok (((J s.d_excessive - J lo) / (J' s.d_excessive - J' lo)) ^ (1 / (p' - q'))) := by
    have a1 := hp.eval s.d_excessive hlt.le le_rfl
    have a2 := hq.eval s.d_excessive hlt.le le_rfl
    simp only [Dist.mean_size, e1, e2, Dist.definite, a1, a2, hp0, hq0, Py.ok_bind, Py.pure_eq]
    rw [pdiv_ok hDq.ne', pdiv_ok hr]; simp only [Py.ok_bind]
    rw [ppow_ok (by positivity)]
  have hpw : p' - s.order - (q' - s.order) = p' - q' := by ring
  have back : ∀ x : ℝ, 0 < x → (x ^ (p' - q')) ^ (1 / (p' - q')) = x := fun x hx => by
    rw [← rpow_mul hx.le, mul_one_div, div_self hr, rpow_one]
  refine ⟨_, hev, ?_⟩
  rcases lt_or_gt_of_ne hr with hneg | hposr
  · obtain ⟨b1, b2⟩ := moment_between (A := s.d_excessive ^ (p' - q')) (B := lo ^ (p' - q')) hlo.le hlt hp hq (fun d h1 h2 => by
      rw [hpw]
      exact ⟨rpow_le_rpow_of_nonpos (hlo.trans h1) h2.le hneg.le, rpow_le_rpow_of_nonpos hlo h1.le hneg.le⟩)
    rw [← le_div_iff₀ hDq] at b1; rw [← div_le_iff₀ hDq] at b2
    have hn' : 1 / (p' - q') ≤ 0 := (one_div_neg.mpr hneg).le
    constructor
    · calc lo = (lo ^ (p' - q')) ^ (1 / (p' - q')) := (back lo hlo).symm
        _ ≤ _ := rpow_le_rpow_of_nonpos (by positivity) b2 hn'
    · calc _ ≤ (s.d_excessive ^ (p' - q')) ^ (1 / (p' - q')) := rpow_le_rpow_of_nonpos (by positivity) b1 hn'
        _ = _ := back _ hhi
  · obtain ⟨b1, b2⟩ := moment_between (A := lo ^ (p' - q')) (B := s.d_excessive ^ (p' - q')) hlo.le hlt hp hq (fun d h1 h2 => by
      rw [hpw]
      exact ⟨rpow_le_rpow hlo.le h1.le hposr.le, rpow_le_rpow (hlo.trans h1).le h2.le hposr.le⟩)
    rw [← le_div_iff₀ hDq] at b1; rw [← div_le_iff₀ hDq] at b2
    have hn' : 0 ≤ 1 / (p' - q') := (one_div_pos.mpr hposr).le
    constructor
    · calc lo = (lo ^ (p' - q')) ^ (1 / (p' - q')) := (back lo hlo).symm
        _ ≤ _ := rpow_le_rpow (by positivity) b1 hn'
    · calc _ ≤ (s.d_excessive ^ (p' - q')) ^ (1 / (p' - q')) := rpow_le_rpow (by positivity) b2 hn'
        _ = _ := back _ hhi

/-- C88: every mean size of a truncated log-normal distribution lies between its smallest and its largest size -/
theorem C88_lognormal {dc s order lo : ℝ} {hi : Option ℝ} (p q : ℝ) (hdc : 0 < dc) (hs : 0 < s) (hlo : 0 < lo) (hlt : lo < hi.getD (1e15 * dc)) :
    ∃ D v, PSDLognormal dc s order (some lo) hi = .ok D ∧ D.mean_size p q = .ok v ∧ lo ≤ v ∧ v ≤ hi.getD (1e15 * dc) := by
  have hD : ∃ a b, PSDLognormal dc s order (some lo) hi = .ok ⟨order, hi.getD (1e15 * dc), lo, true, lo, hi.getD (hi.getD (1e15 * dc)), a, b,
      fun d => pdf_lognormal d dc s, fun d => cdf_lognormal d dc s, fun d n => pdf_lognormal_basis_integral d dc s n⟩ := by
    simp only [PSDLognormal, construct, Option.isSome_some, true_or, if_true, Option.getD_some, cdf_lognormal_eval hdc hs, Py.ok_bind]
    exact ⟨_, _, rfl⟩
  obtain ⟨a, b, hD⟩ := hD
  obtain ⟨v, h1, h2, h3⟩ := mean_between_sizes (s := ⟨order, hi.getD (1e15 * dc), lo, true, lo, hi.getD (hi.getD (1e15 * dc)), a, b,
      fun d => pdf_lognormal d dc s, fun d => cdf_lognormal d dc s, fun d n => pdf_lognormal_basis_integral d dc s n⟩) (p := p) (q := q) hlo hlt
    (lognormal_antiderivative hdc hs hlo) (lognormal_antiderivative hdc hs hlo) (lognormal_integral_eval hdc hs hlo) (lognormal_integral_eval hdc hs hlo)
  exact ⟨_, v, hD, h1, h2, h3⟩

/-- C88: every mean size of an untruncated log-normal distribution lies between 1e-80 m and 1e15 characteristic diameters -/
theorem C88_lognormal_whole {dc s order : ℝ} (p q : ℝ) (hd : 1e-95 < dc) (hs : 0 < s) :
    ∃ D v, PSDLognormal dc s order = .ok D ∧ D.mean_size p q = .ok v ∧ 1e-80 ≤ v ∧ v ≤ 1e15 * dc := by
  have hdc : 0 < dc := lt_trans (by norm_num) hd
  obtain ⟨v, h1, h2, h3⟩ := mean_between_sizes (s := ⟨order, 1e15 * dc, 0, false, 0, 0, 0, 0,
      fun d => pdf_lognormal d dc s, fun d => cdf_lognormal d dc s, fun d n => pdf_lognormal_basis_integral d dc s n⟩) (p := p) (q := q) (lo := 1e-80) (by norm_num)
    (by dsimp only; norm_num at hd ⊢; linarith)
    (lognormal_antiderivative hdc hs (by norm_num)) (lognormal_antiderivative hdc hs (by norm_num)) (lognormal_integral_zero hdc hs) (lognormal_integral_zero hdc hs)
  exact ⟨_, v, rfl, h1, h2, h3⟩

/-- C88: every mean size of a truncated Rosin-Rammler distribution, for exponents whose moments exist, lies between its smallest and largest size -/
theorem C88_Rosin_Rammler {k m order lo p q : ℝ} {hi : Option ℝ} (hk : 0 < k) (hm : 0 < m) (hlo : 0 < lo) (hlt : lo < hi.getD 1e15)
    (hp : 1e-9 < m + (p - order)) (hq : 1e-9 < m + (q - order)) :
    ∃ D v, PSDRosinRammler k m order (some lo) hi = .ok D ∧ D.mean_size p q = .ok v ∧ lo ≤ v ∧ v ≤ hi.getD 1e15 := by
  have ev : ∀ d, 0 ≤ d → cdf_Rosin_Rammler d k m = .ok (1 - exp (-k * d ^ m)) := fun d h0 => by
    unfold cdf_Rosin_Rammler; rw [ppow_ok' h0 hm.le]; rfl
  have e : hi.getD (hi.getD 1e15) = hi.getD (1e15 : ℝ) := by cases hi <;> rfl
  have hD : ∃ a b, PSDRosinRammler k m order (some lo) hi = .ok ⟨order, hi.getD 1e15, lo, true, lo, hi.getD (hi.getD 1e15), a, b,
      fun d => pdf_Rosin_Rammler d k m, fun d => cdf_Rosin_Rammler d k m, fun d n => pdf_Rosin_Rammler_basis_integral d k m n⟩ := by
    simp only [PSDRosinRammler, construct, Option.isSome_some, true_or, if_true, Option.getD_some, ev _ hlo.le, ev (hi.getD (hi.getD 1e15)) (by rw [e]; exact (hlo.trans hlt).le), Py.ok_bind]
    exact ⟨_, _, rfl⟩
  obtain ⟨a, b, hD⟩ := hD
  have hP : 0 < m + ((nudge p q).1 - order) ∧ 0 < m + ((nudge p q).2 - order) := by
    unfold nudge; split_ifs <;> constructor <;> dsimp only <;> norm_num at hp hq ⊢ <;> linarith
  obtain ⟨v, h1, h2, h3⟩ := mean_between_sizes (s := ⟨order, hi.getD 1e15, lo, true, lo, hi.getD (hi.getD 1e15), a, b,
      fun d => pdf_Rosin_Rammler d k m, fun d => cdf_Rosin_Rammler d k m, fun d n => pdf_Rosin_Rammler_basis_integral d k m n⟩) (p := p) (q := q) hlo hlt
    (rosin_antiderivative hk hm hP.1 hlo) (rosin_antiderivative hk hm hP.2 hlo) (rosin_integral_eval hk hm hP.1 hlo) (rosin_integral_eval hk hm hP.2 hlo)
  exact ⟨_, v, hD, h1, h2, h3⟩

/-- C88 (finding): a `PSDGatesGaudinSchuhman` without a minimum diameter has no mean size with an exponent below its order: in particular the
specific surface of a volume distribution raises ZeroDivisionError -/
theorem C88_Gates_Gaudin_Schuhman_vssa {dc m : ℝ} (hdc : 0 < dc) (hm : 0 < m) :
    ∃ D, PSDGatesGaudinSchuhman dc m = .ok D ∧ D.vssa = .error .zeroDivisionError := by
  refine ⟨_, rfl, ?_⟩
  have e0 : (0 : ℝ) ^ₚ (2 - 3) = .error .zeroDivisionError := by unfold ppow; norm_num
  have hz : pdf_Gates_Gaudin_Schuhman_basis_integral 0 dc m (2 - 3) = .error .zeroDivisionError := by
    unfold pdf_Gates_Gaudin_Schuhman_basis_integral
    by_cases h : m + (2 - 3) = 0
    · rw [h, pdiv_zero]; rfl
    · rw [pdiv_ok h, e0]; rfl
  have hfirst : pdf_Gates_Gaudin_Schuhman_basis_integral dc dc m (2 - 3) = .error .zeroDivisionError ∨
      ∃ v, pdf_Gates_Gaudin_Schuhman_basis_integral dc dc m (2 - 3) = .ok v := by
    unfold pdf_Gates_Gaudin_Schuhman_basis_integral
    by_cases h : m + (2 - 3) = 0
    · left; rw [h, pdiv_zero]; rfl
    · right
      rw [pdiv_ok h, ppow_ok hdc, pdiv_ok hdc.ne']; simp only [Py.ok_bind]
      rw [ppow_ok (by positivity)]; exact ⟨_, rfl⟩
  simp only [Dist.vssa, Dist.mean_size, Dist.definite, show (3 : ℝ) ≠ 2 by norm_num, if_false, hz, Option.getD_none]
  rcases hfirst with h | ⟨v, h⟩ <;> rw [h] <;> rfl

example : ∃ D v, PSDLognormal 5e-6 0.5 3 (some 1e-6) (some 2e-5) = .ok D ∧ D.mean_size 3 2 = .ok v ∧ 1e-6 ≤ v ∧ v ≤ 2e-5 :=
  C88_lognormal (hi := some 2e-5) 3 2 (by norm_num) (by norm_num) (by norm_num) (by norm_num)

example : ∃ D v, PSDRosinRammler 200 2 3 (some 1e-4) = .ok D ∧ D.mean_size 3 2 = .ok v ∧ 1e-4 ≤ v ∧ v ≤ 1e15 :=
  C88_Rosin_Rammler (hi := none) (by norm_num) (by norm_num) (by norm_num) (by norm_num) (by norm_num) (by norm_num)

end Verif.Psd
