import Verif.Model.PsdInterp
import Verif.Props.PsdQueries
import Verif.Props.PsdSpacing
import Mathlib.MeasureTheory.Integral.IntervalIntegral.FundThmCalculus

/-! # C133: custom size distributions, meshes and fitting -/

open Real

noncomputable section

namespace Verif.Psd

/-! ### Custom distributions -/

theorem moment_eq (pdf : ℝ → ℝ) (n d : ℝ) : moment pdf n d = d ^ n * pdf d := by
  unfold moment
  split_ifs with h0 h1 h2 h3
  · rw [h0, rpow_zero, one_mul]
  · rw [h1, rpow_one]
  · rw [h2, rpow_two]; ring
  · rw [h3, show (3 : ℝ) = ((3 : ℕ) : ℝ) by norm_num, rpow_natCast]; ring
  · rfl

/-- C133: the moments of a custom distribution are the integrals of its density weighted with the power of the size; a lower limit of zero is replaced by a small part of the upper one. -/
theorem C133_custom_moment (pdf : ℝ → ℝ) (a b n : ℝ) :
    (a ≠ 0 → customDefinite pdf a b n = ∫ d in a..b, d ^ n * pdf d) ∧ customDefinite pdf 0 b n = ∫ d in (1e-12 * b)..b, d ^ n * pdf d := by
  unfold customDefinite
  constructor
  · intro ha
    simp only [if_neg ha, moment_eq]
  · simp only [if_true, moment_eq, mul_comm b]

/-- C133: what the construction stores: bounds given are kept, and the distribution counts as truncated exactly if one was given. -/
theorem C133_custom_bounds (pdf cdf : ℝ → ℝ) (order dx : ℝ) (lo hi : Option ℝ) :
    ∃ s, PSDCustom pdf cdf order dx lo hi = .ok s ∧ s.order = order ∧ s.d_excessive = hi.getD dx ∧ s.d_minimum = lo.getD 0 ∧ (s.truncated = true ↔ lo ≠ none ∨ hi ≠ none) ∧
      (∀ d, s.rawPdf d = .ok (pdf d) ∧ s.rawCdf d = .ok (cdf d)) ∧
      (s.truncated = true → s.d_min = lo.getD 0 ∧ s.d_max = hi.getD dx ∧ s.cdf_d_min = cdf (lo.getD 0) ∧ s.cdf_d_max = cdf (hi.getD dx)) := by
  unfold PSDCustom construct
  cases lo <;> cases hi <;> simp [Py.ok_bind, Py.pure_eq]

/-- C133: a custom distribution truncated to sizes from `lo` to `hi` goes from zero to one over them, and not truncated it is the distribution given where that is nonnegative. -/
theorem C133_custom_cdf (pdf cdf : ℝ → ℝ) (order dx : ℝ) (lo hi : ℝ) (hlt : lo < hi) (hc : ∀ d, 0 ≤ cdf d) (hne : cdf lo ≠ cdf hi) :
    (∃ s, PSDCustom pdf cdf order dx (some lo) (some hi) = .ok s ∧ (∀ d ≤ lo, s.cdf d = .ok 0) ∧ (∀ d, hi ≤ d → s.cdf d = .ok 1) ∧
      ∀ d, lo < d → d < hi → s.cdf d = .ok ((cdf d - cdf lo) / (cdf hi - cdf lo))) ∧
    (∃ s, PSDCustom pdf cdf order dx = .ok s ∧ ∀ d, s.cdf d = .ok (cdf d)) := by
  constructor
  · obtain ⟨s, h1, -, -, -, h5, h6, h7⟩ := C133_custom_bounds pdf cdf order dx (some lo) (some hi)
    have ht : s.truncated = true := h5.2 (by simp)
    obtain ⟨e1, e2, e3, e4⟩ := h7 ht
    simp only [Option.getD_some] at e1 e2 e3 e4
    refine ⟨s, h1, fun d hd => ?_, fun d hd => ?_, fun d hd1 hd2 => ?_⟩ <;>
      simp only [Dist.cdf, Dist.basisCdf, (h6 d).2, Py.ok_bind, ht, if_true, e1, e2, e3, e4]
    · rw [if_pos hd]
    · rw [if_neg (not_le.2 (by linarith)), if_pos hd]
    · rw [if_neg (not_le.2 hd1), if_neg (not_le.2 hd2), max_eq_left (hc d), pdiv_ok (sub_ne_zero.2 hne.symm)]
  · obtain ⟨s, h1, -, -, -, h5, h6, -⟩ := C133_custom_bounds pdf cdf order dx none none
    have ht : s.truncated = false := by
      cases hh : s.truncated with
      | false => rfl
      | true => simpa using h5.1 hh
    refine ⟨s, h1, fun d => ?_⟩
    simp only [Dist.cdf, Dist.basisCdf, (h6 d).2, Py.ok_bind, ht, Bool.false_eq_true, if_false]
    rw [max_eq_left (hc d)]

/-- C133: in another basis the cumulative distribution of a custom distribution is the quotient of the moments up to the size and up to the largest; so it is one at the largest. -/
theorem C133_custom_basis (pdf : ℝ → ℝ) (s : Dist) (d n : ℝ) (hD : 0 < ∫ x in (1e-12 * s.d_excessive)..s.d_excessive, x ^ (n - s.order) * pdf x) :
    customCdf pdf s d n = .ok (max ((∫ x in (1e-12 * d)..d, x ^ (n - s.order) * pdf x) / ∫ x in (1e-12 * s.d_excessive)..s.d_excessive, x ^ (n - s.order) * pdf x) 0) ∧
    customCdf pdf s s.d_excessive n = .ok 1 := by
  have key : ∀ d, customCdf pdf s d n = .ok (max ((∫ x in (1e-12 * d)..d, x ^ (n - s.order) * pdf x) / ∫ x in (1e-12 * s.d_excessive)..s.d_excessive, x ^ (n - s.order) * pdf x) 0) := by
    intro d
    unfold customCdf
    rw [(C133_custom_moment pdf 0 d _).2, (C133_custom_moment pdf 0 s.d_excessive _).2, pdiv_ok hD.ne']; rfl
  refine ⟨key d, ?_⟩
  rw [key, div_self hD.ne', max_eq_left zero_le_one]

/-- C133: the mean sizes of a custom distribution with a smallest size lie between its smallest and its largest. -/
theorem C133_custom_mean (pdf cdf : ℝ → ℝ) (order dx lo p q : ℝ) (hi : Option ℝ) (hlo : 0 < lo) (hlt : lo < hi.getD dx) (hc : ContinuousOn pdf (Set.Ioi 0)) (hp : ∀ d, 0 < d → 0 < pdf d) :
    ∃ s v, PSDCustom pdf cdf order dx (some lo) hi = .ok s ∧ customMean pdf s p q = .ok v ∧ lo ≤ v ∧ v ≤ hi.getD dx := by
  obtain ⟨s, h1, h2, h3, h4, -, -⟩ := C133_custom_bounds pdf cdf order dx (some lo) hi
  rw [Option.getD_some] at h4
  have hcont : ∀ n : ℝ, ContinuousOn (fun x => x ^ n * pdf x) (Set.Ioi 0) := fun n =>
    (continuousOn_id.rpow_const fun x hx => .inl (ne_of_gt hx)).mul hc
  -- the indefinite integral from the smallest size
  set s' : Dist := ⟨s.order, s.d_excessive, s.d_minimum, false, 0, 0, 0, 0, fun d => .ok (pdf d), fun d => .ok (cdf d), fun d n => .ok (∫ x in lo..d, x ^ n * pdf x)⟩ with hs'
  have hanti : ∀ n, Antiderivative (s'.rawIntegral · n) s'.rawPdf (fun d => ∫ x in lo..d, x ^ n * pdf x) pdf n lo s'.d_excessive := by
    intro n
    have hint : ∀ b, 0 < b → IntervalIntegrable (fun x => x ^ n * pdf x) MeasureTheory.volume lo b := by
      intro b hb
      refine ((hcont n).mono ?_).intervalIntegrable
      intro x hx
      rcases Set.mem_uIcc.1 hx with h | h
      · exact lt_of_lt_of_le hlo h.1
      · exact lt_of_lt_of_le hb h.1
    have hder : ∀ d, 0 < d → HasDerivAt (fun d => ∫ x in lo..d, x ^ n * pdf x) (d ^ n * pdf d) d := by
      intro d hd
      exact intervalIntegral.integral_hasDerivAt_right (hint d hd) ((hcont n).stronglyMeasurableAtFilter isOpen_Ioi d hd) ((hcont n).continuousAt (isOpen_Ioi.mem_nhds hd))
    refine ⟨fun d _ _ => rfl, fun d hd => (hder d (lt_of_lt_of_le hlo hd.1)).continuousAt.continuousWithinAt, fun d hd _ => ⟨rfl, hp d (hlo.trans hd)⟩, fun d hd _ => hder d (hlo.trans hd)⟩
  obtain ⟨v, e1, e2, e3⟩ := mean_between_sizes (s := s') (p := p) (q := q) hlo (by rw [hs']; simp only [h3]; exact hlt) (hanti _) (hanti _) (by simp only [hs', h4]) (by simp only [hs', h4])
  refine ⟨s, v, h1, ?_, e2, by rw [← h3]; exact e3⟩
  have hdef : ∀ n, s'.definite s'.d_minimum s'.d_excessive n = .ok (customDefinite pdf s.d_minimum s.d_excessive n) := by
    intro n
    rw [(C133_custom_moment pdf _ _ n).1 (by rw [h4]; exact hlo.ne')]
    simp only [Dist.definite, hs', Py.ok_bind, Py.pure_eq, h4, intervalIntegral.integral_same, sub_zero]
  unfold Dist.mean_size at e1
  unfold customMean
  simp only [hdef, Py.ok_bind] at e1
  exact e1

example : ∃ s v, PSDCustom (fun d => exp (-d)) (fun d => 1 - exp (-d)) 3 1 (some 0.1) none = .ok s ∧ customMean (fun d => exp (-d)) s 3 2 = .ok v ∧ 0.1 ≤ v ∧ v ≤ 1 := by
  have := C133_custom_mean (fun d => exp (-d)) (fun d => 1 - exp (-d)) 3 1 0.1 3 2 none (by norm_num) (by norm_num) (by fun_prop) (fun d _ => exp_pos _)
  simpa using this

/-! ### Meshes -/

/-- C133: a mesh without bounds starts at the size below which the limit lies and ends at the one above which it does, in equal ratios; bounds given are kept; the sizes of a Renard series are left to `psd_spacing`; an empty name raises `IndexError`. -/
theorem C133_mesh (parse : String → Py ℝ) (brenth : (ℝ → Py ℝ) → ℝ → ℝ → Py ℝ) (eps : ℝ) (s : Dist) (hb : ∀ f a b x, brenth f a b = .ok x → f x = .ok 0) {limit : ℝ} (h0 : 0 < limit) (h1 : limit < 1 / 2) :
    (∀ lo hi, s.dn brenth eps limit = .ok lo → s.dn brenth eps (1 - limit) = .ok hi → 0 < lo → lo < hi → ∀ pts : ℕ, 2 ≤ pts →
      ∃ ds, s.ds_discrete parse brenth eps none none pts limit = .ok ds ∧ ds.length = pts ∧ s.cdf (ds.getD 0 0) = .ok limit ∧ s.cdf (ds.getD (pts - 1) 0) = .ok (1 - limit) ∧
        ∀ i, i + 1 < pts → ds.getD i 0 < ds.getD (i + 1) 0) ∧
    (∀ lo hi pts (method : String), method ≠ "" → s.ds_discrete parse brenth eps (some lo) (some hi) pts limit method = psd_spacing parse (some lo) (some hi) pts method) ∧
    (∀ lo hi pts (method : String) c rest, method.toList = c :: rest → c = 'R' ∨ c = 'r' → s.ds_discrete parse brenth eps lo hi pts limit method = psd_spacing parse lo hi pts method) ∧
    (∀ lo hi pts, s.ds_discrete parse brenth eps lo hi pts limit "" = .error .indexError) := by
  refine ⟨fun lo hi hlo hhi hl0 hlt pts hn => ?_, fun lo hi pts method hm => ?_, fun lo hi pts method c rest hm hc => ?_, fun lo hi pts => rfl⟩
  · obtain ⟨ds, e1, e2, -, e4, e5, e6, -⟩ := C69_logarithmic parse hl0 hlt hn
    have hcdf : ∀ x f, s.dn brenth eps f = .ok x → 0 < f → f < 1 → s.cdf x = .ok f := by
      intro x f hx hf0 hf1
      unfold Dist.dn at hx
      simp only [if_neg (ne_of_lt hf1), if_neg (not_lt.2 hf0.le), if_neg hf0.ne', if_neg (not_lt.2 hf1.le)] at hx
      have := hb _ _ _ _ hx
      obtain ⟨c, hc, h⟩ := Py.bind_eq_ok.1 this
      have : c - f = 0 := Except.ok.inj h
      rw [hc]; congr 1; linarith
    refine ⟨ds, ?_, e2, ?_, ?_, e6⟩
    · unfold Dist.ds_discrete
      simp only [show "logarithmic".toList = ['l', 'o', 'g', 'a', 'r', 'i', 't', 'h', 'm', 'i', 'c'] from rfl, boundOr, hlo, hhi, Py.ok_bind]
      rw [if_neg (by decide)]
      exact e1
    · rw [e4]; exact hcdf lo limit hlo h0 (by linarith)
    · rw [e5]; exact hcdf hi (1 - limit) hhi (by linarith) (by linarith)
  · unfold Dist.ds_discrete
    cases hl : method.toList with
    | nil => exact absurd (by rw [← String.ofList_toList (s := method), hl]) hm
    | cons c t =>
      simp only [boundOr, Py.ok_bind]
      split <;> rfl
  · unfold Dist.ds_discrete
    rw [hm]
    simp only [if_pos hc]

/-! ### Fitting -/

theorem getD_size {l : List ℝ} {i : ℕ} (h : i < l.length) : Seq.pyGet l (i : ℤ) = .ok (l.getD i 0) := by
  unfold Seq.pyGet
  simp only [show ¬ ((i : ℤ) < 0) by omega, if_false, Int.toNat_natCast, List.getD_eq_getElem?_getD, List.getElem?_eq_getElem h]
  rfl

theorem foldlM_add (g : ℝ → ℕ → Py ℝ) (t : ℕ → ℝ) (n : ℕ) (h : ∀ e, ∀ i < n, g e i = .ok (e + t i)) : ∀ e, (List.range n).foldlM g e = .ok (e + ∑ i ∈ Finset.range n, t i) := by
  induction n with
  | zero => intro e; simp [Py.pure_eq]
  | succ n ih =>
    intro e
    rw [List.range_succ, List.foldlM_append, ih (fun e i hi => h e i (by omega)) e, Py.ok_bind, List.foldlM_cons, h _ n (by omega), Py.ok_bind, List.foldlM_nil, Finset.sum_range_succ, add_assoc]
    rfl

/-- the share of a distribution between two sizes, with its own order -/
def Share (dist : Dist) (F : ℝ → ℝ) : Prop := ∀ d, dist.cdf d = .ok (F d)

theorem objective_eq {s : Discrete} {dist : Dist} {F : ℝ → ℝ} (hF : Share dist F) (m : ℕ) (hm : m = if s.size_classes then s.fractions.length else s.fractions.length - 1) (h1 : m + 1 ≤ s.ds.length) (h2 : m ≤ s.fractions.length) :
    fitObjective s dist = .ok (∑ i ∈ Finset.range m, |F (s.ds.getD (i + 1) 0) - F (s.ds.getD i 0) - s.fractions.getD i 0|) := by
  unfold fitObjective
  rw [← hm, foldlM_add _ (fun i => |F (s.ds.getD (i + 1) 0) - F (s.ds.getD i 0) - s.fractions.getD i 0|) m _ 0, zero_add]
  intro e i hi
  unfold fitStep
  rw [getD_size (by omega), Py.ok_bind, show ((i : ℤ) + 1) = ((i + 1 : ℕ) : ℤ) by push_cast; rfl, getD_size (by omega), Py.ok_bind]
  unfold Dist.delta_cdf
  rw [hF, Py.ok_bind, hF, Py.ok_bind, Py.pure_eq, Py.ok_bind, getD_size (by omega), Py.ok_bind]
  rfl

theorem sum_abs_zero {m : ℕ} {t : ℕ → ℝ} : ∑ i ∈ Finset.range m, |t i| = 0 ↔ ∀ i < m, t i = 0 := by
  rw [Finset.sum_eq_zero_iff_of_nonneg fun i _ => abs_nonneg _]
  simp

/-- C133: the objective of a fit to measured classes is never negative, and zero exactly if the distribution has in every class the measured fraction. -/
theorem C133_fit_classes (s : Discrete) (dist : Dist) (F : ℝ → ℝ) (hF : Share dist F) (hs : s.size_classes = true) (hl : s.ds.length = s.fractions.length + 1) :
    ∃ e, fitObjective s dist = .ok e ∧ 0 ≤ e ∧ (e = 0 ↔ ∀ i < s.fractions.length, F (s.ds.getD (i + 1) 0) - F (s.ds.getD i 0) = s.fractions.getD i 0) := by
  refine ⟨_, objective_eq hF s.fractions.length (by rw [hs]; rfl) (by omega) le_rfl, Finset.sum_nonneg fun i _ => abs_nonneg _, ?_⟩
  rw [sum_abs_zero]
  exact forall₂_congr fun i _ => sub_eq_zero

/-- C133, finding: for fractions measured at sizes the comparison is off by one place: each is compared with the share above its size, not below. A distribution that has below each size exactly what was measured has zero objective only if all fractions are equal. -/
theorem C133_fit_sizes (s : Discrete) (dist : Dist) (F : ℝ → ℝ) (hF : Share dist F) (hs : s.size_classes = false) (hl : s.ds.length = s.fractions.length)
    (hex : ∀ i, i + 1 < s.fractions.length → F (s.ds.getD (i + 1) 0) - F (s.ds.getD i 0) = s.fractions.getD (i + 1) 0) (hne : s.fractions ≠ []) :
    ∃ e, fitObjective s dist = .ok e ∧ (e = 0 ↔ ∀ i, i + 1 < s.fractions.length → s.fractions.getD (i + 1) 0 = s.fractions.getD i 0) := by
  have hpos : 0 < s.fractions.length := List.length_pos_iff.2 hne
  refine ⟨_, objective_eq hF (s.fractions.length - 1) (by rw [hs]; rfl) (by omega) (by omega), ?_⟩
  rw [sum_abs_zero]
  constructor
  · intro h i hi
    have := h i (by omega)
    rw [hex i hi] at this
    linarith
  · intro h i hi
    rw [hex i (by omega), h i (by omega), sub_self]

/-- the sizes 1/4 and 1 with 1/4 and 3/4 of the volume, which the uniform distribution up to 1 has exactly, do not have zero objective -/
example : ∃ e, fitObjective ⟨[1 / 4, 1], false, 2, [1 / 4, 3 / 4], [], [], [], [], [], [], []⟩
    ⟨3, 1, 0, false, 0, 0, 0, 0, fun _ => .ok 1, fun d => .ok d, fun _ _ => .ok 0⟩ = .ok e ∧ e ≠ 0 := by
  obtain ⟨e, h1, h2⟩ := C133_fit_sizes ⟨[1 / 4, 1], false, 2, [1 / 4, 3 / 4], [], [], [], [], [], [], []⟩
    ⟨3, 1, 0, false, 0, 0, 0, 0, fun _ => .ok 1, fun d => .ok d, fun _ _ => .ok 0⟩ (fun d => max d 0) (fun d => rfl) rfl rfl
    (fun i hi => by
      obtain rfl : i = 0 := by simp at hi; omega
      norm_num) (by simp)
  refine ⟨e, h1, fun h => ?_⟩
  have := h2.1 h 0 (by simp)
  norm_num at this

/-- C133: a fit minimises that objective over the two parameters of the class named; the starting size of the log-normal and Gates-Gaudin-Schuhman fits is the mean of the class sizes weighted with the fractions; other names raise `KeyError`; the order passed is not used. -/
theorem C133_fit {R : Type} (minimize : (ℝ × ℝ → Py ℝ) → ℝ × ℝ → Py R) (s : Discrete) (x0 : ℝ × ℝ) (n : Option ℝ) :
    s.fit minimize (some x0) "lognormal" n = minimize (fun v => PSDLognormal v.1 v.2 >>= fitObjective s) x0 ∧
    s.fit minimize (some x0) "GGS" n = minimize (fun v => PSDGatesGaudinSchuhman v.1 v.2 >>= fitObjective s) x0 ∧
    s.fit minimize (some x0) "RR" n = minimize (fun v => PSDRosinRammler v.1 v.2 >>= fitObjective s) x0 ∧
    s.fit minimize none "RR" n = s.fit minimize (some (5e-6, 1e-2)) "RR" n ∧
    (∀ Dis, s.Dis = .ok Dis → s.fit minimize none "lognormal" n = s.fit minimize (some ((List.zipWith (fun fi di => fi * di) s.fractions Dis).sum, 0.4)) "lognormal" n ∧
      s.fit minimize none "GGS" n = s.fit minimize (some ((List.zipWith (fun fi di => fi * di) s.fractions Dis).sum, 1.5)) "GGS" n) ∧
    (∀ x name, name ≠ "lognormal" → name ≠ "GGS" → name ≠ "RR" → s.fit minimize x name n = .error .keyError) := by
  refine ⟨?_, ?_, ?_, ?_, fun Dis hD => ⟨?_, ?_⟩, fun x name h1 h2 h3 => ?_⟩
  · simp only [Discrete.fit, fitClass, fitStart, if_true, Py.ok_bind]
  · simp only [Discrete.fit, fitClass, fitStart, String.reduceEq, if_true, if_false, Py.ok_bind]
  · simp only [Discrete.fit, fitClass, fitStart, String.reduceEq, if_true, if_false, Py.ok_bind]
  · simp only [Discrete.fit, fitClass, fitStart, String.reduceEq, if_true, if_false, Py.ok_bind]
  · simp only [Discrete.fit, fitClass, fitStart, String.reduceEq, if_true, if_false, hD, Py.ok_bind, Py.pure_eq]
  · simp only [Discrete.fit, fitClass, fitStart, String.reduceEq, if_true, if_false, hD, Py.ok_bind, Py.pure_eq]
  · simp only [Discrete.fit, fitClass, if_neg h1, if_neg h2, if_neg h3, Py.error_bind]

end Verif.Psd
