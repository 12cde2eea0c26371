import Verif.Model.PsdInterp
import Verif.Props.PsdDiscrete
import Mathlib.MeasureTheory.Integral.IntervalIntegral.FundThmCalculus

/-! # C133: interpolated size distributions -/

noncomputable section

namespace Verif.Psd

/-! ### The cumulative distribution through the data -/

/-- Specification of a monotone interpolation of the points `x`, `y`: it passes through them, does not decrease between them when the values do not, and `slope` is its continuous derivative. -/
structure Faithful (P : Pchip) (x y : List ℝ) : Prop where
  through : ∀ i < x.length, P.curve x y (x.getD i 0) = y.getD i 0
  mono : y.Pairwise (· ≤ ·) → ∀ a b, x.getD 0 0 ≤ a → a ≤ b → (∃ m ∈ x, b ≤ m) → P.curve x y a ≤ P.curve x y b
  deriv : ∀ d, HasDerivAt (P.curve x y) (P.slope x y d) d
  cont : Continuous (P.slope x y)

theorem build_interp {P : Pchip} {ds fr : List ℝ} {order : ℝ} {b : Bool} {s : Interp} (h : PSDInterpolated P ds fr order b = .ok s) :
    ∃ x y o m, prepare ds fr = .ok (x, y, o) ∧ x.max? = some m ∧ y ≠ [] ∧ s = ⟨order, b, x, y, o, m, (List.range y.length).map fun i => (y.take (i + 1)).sum⟩ := by
  unfold PSDInterpolated at h
  obtain ⟨⟨x, y, o⟩, hp, h⟩ := Py.bind_eq_ok.1 h
  cases hm : x.max? with
  | none => simp only [hm] at h; cases h
  | some m =>
    simp only [hm] at h
    obtain ⟨c, hc, h⟩ := Py.bind_eq_ok.1 h
    have hy := cumsum_ne hc
    rw [(C20_cumsum y).2 hy] at hc
    cases hc
    refine ⟨x, y, o, m, hp, hm, hy, ?_⟩
    cases b with
    | false => cases h; rfl
    | true =>
      simp only [if_true] at h
      obtain ⟨_, -, h⟩ := Py.bind_eq_ok.1 h
      cases h; rfl

theorem prefix_getD (y : List ℝ) {i : ℕ} (hi : i < y.length) : ((List.range y.length).map fun i => (y.take (i + 1)).sum).getD i 0 = (y.take (i + 1)).sum := by
  simp [List.getD_eq_getElem?_getD, List.getElem?_map, List.getElem?_range hi]

theorem take_sum_mono {y : List ℝ} (h : ∀ f ∈ y, 0 ≤ f) {i j : ℕ} (hij : i ≤ j) : (y.take i).sum ≤ (y.take j).sum := by
  obtain ⟨k, rfl⟩ := Nat.exists_eq_add_of_le hij
  rw [List.take_add, List.sum_append]
  have : 0 ≤ ((y.drop i).take k).sum := List.sum_nonneg fun f hf => h f (List.mem_of_mem_drop (List.mem_of_mem_take hf))
  linarith

theorem prefix_pairwise {y : List ℝ} (h : ∀ f ∈ y, 0 ≤ f) : ((List.range y.length).map fun i => (y.take (i + 1)).sum).Pairwise (· ≤ ·) := by
  rw [List.pairwise_map]
  exact List.pairwise_lt_range.imp fun hij => take_sum_mono h (by omega)

theorem prepare_mem {ds fr x y : List ℝ} {o : Option ℝ} (hp : prepare ds fr = .ok (x, y, o)) : ∀ f ∈ y, f ∈ fr ∨ f = 0 := by
  unfold prepare at hp
  intro f hf
  split at hp
  · split at hp
    · cases hp
    · cases hp
      rcases List.mem_cons.1 hf with h | h
      · exact .inr h
      · exact .inl h
  · split at hp
    · cases hp
    · split at hp
      · cases hp
        split at hf
        · rcases List.mem_cons.1 hf with h | h
          · exact .inr h
          · exact .inl h
        · exact .inl hf
      · cases hp; exact .inl hf

theorem le_max {x : List ℝ} {m : ℝ} (h : x.max? = some m) {a : ℝ} (ha : a ∈ x) : a ≤ m := (List.max?_eq_some_iff.1 h).2 a ha

theorem getD_mem {x : List ℝ} {i : ℕ} (h : i < x.length) : x.getD i 0 ∈ x := by
  rw [List.getD_eq_getElem?_getD, List.getElem?_eq_getElem h]; exact List.getElem_mem h

theorem cdf_at {P : Pchip} {x y : List ℝ} {order m : ℝ} {o : Option ℝ} (hm : x.max? = some m) (hpos : ∀ f ∈ y, 0 ≤ f) (hl : x.length = y.length)
    (hF : Faithful P x ((List.range y.length).map fun i => (y.take (i + 1)).sum)) {i : ℕ} (hi : i < x.length) :
    Interp.cdf P ⟨order, true, x, y, o, m, (List.range y.length).map fun i => (y.take (i + 1)).sum⟩ (x.getD i 0) = .ok (y.take (i + 1)).sum := by
  unfold Interp.cdf Interp.rawCdf
  simp only
  rw [if_neg (not_lt.2 (le_max hm (getD_mem hi))), if_true, Py.ok_bind, hF.through i hi, prefix_getD y (by omega)]
  have : 0 ≤ (y.take (i + 1)).sum := List.sum_nonneg fun f hf => hpos f (List.mem_of_mem_take hf)
  rw [max_eq_right this, max_eq_left this]; rfl

/-- C133: the interpolated cumulative distribution passes through the data. With one size more than fractions, at each size it is the sum of the fractions of the classes below. With as many sizes as fractions and a first size other than zero it is the sum of the fractions up to that size, and zero at size zero. -/
theorem C133_through (P : Pchip) (ds fr : List ℝ) (order : ℝ) (s : Interp) (h : PSDInterpolated P ds fr order = .ok s) (hF : Faithful P s.ds s.fraction_cdf) (hpos : ∀ f ∈ fr, 0 ≤ f) :
    (ds.length = fr.length + 1 → ∀ i ≤ fr.length, s.cdf P (ds.getD i 0) = .ok (fr.take i).sum) ∧
    (ds.length = fr.length → ds.getD 0 0 ≠ 0 → s.cdf P 0 = .ok 0 ∧ ∀ i < fr.length, s.cdf P (ds.getD i 0) = .ok (fr.take (i + 1)).sum) := by
  obtain ⟨x, y, o, m, hp, hm, hy, rfl⟩ := build_interp h
  unfold prepare at hp
  have hpos' : ∀ f ∈ (0 : ℝ) :: fr, 0 ≤ f := by
    intro f hf
    rcases List.mem_cons.1 hf with rfl | hf
    · exact le_rfl
    · exact hpos f hf
  refine ⟨fun hl i hi => ?_, fun hl h0 => ?_⟩
  · rw [if_pos hl] at hp
    cases hd : ds.min? with
    | none => rw [hd] at hp; cases hp
    | some a =>
      rw [hd] at hp
      cases hp
      have := cdf_at (order := order) (o := some a) hm hpos' (by simpa using hl) hF (i := i) (by omega)
      rw [this]
      simp
  · rw [if_neg (by omega)] at hp
    cases ds with
    | nil => cases hp
    | cons d0 t =>
      have h0' : d0 ≠ 0 := by simpa using h0
      simp only [if_pos h0'] at hp
      rw [if_pos (by simp only [hl]; omega)] at hp
      cases hp
      have key := fun i (hi : i < (0 :: d0 :: t).length) => cdf_at (order := order) (o := some 0) hm hpos' (by simpa using hl) hF hi
      refine ⟨?_, fun i hi => ?_⟩
      · have := key 0 (by simp)
        simpa using this
      · have := key (i + 1) (by simp only [List.length_cons] at hl ⊢; omega)
        rw [List.getD_cons_succ] at this
        rw [this]
        simp

/-- C133: with nonnegative fractions that sum to one, the cumulative distribution starts from zero at the smallest size, never decreases from there on and never exceeds one, which it is from the largest size on. -/
theorem C133_cumulative (P : Pchip) (ds fr : List ℝ) (order : ℝ) (s : Interp) (h : PSDInterpolated P ds fr order = .ok s) (hl : ds.length = fr.length + 1 ∨ ds.length = fr.length ∧ 0 < ds.getD 0 0)
    (hF : Faithful P s.ds s.fraction_cdf) (hpos : ∀ f ∈ fr, 0 ≤ f) (hsum : fr.sum = 1) (hinc : ds.Pairwise (· < ·)) :
    ∃ F : ℝ → ℝ, (∀ d, s.cdf P d = .ok (F d)) ∧ (∀ d, 0 ≤ F d) ∧ (∀ a b, (ds.length = fr.length + 1 → ds.getD 0 0 ≤ a) → (ds.length = fr.length → 0 ≤ a) → a ≤ b → F a ≤ F b) ∧
      (∀ d, (ds.length = fr.length + 1 → ds.getD 0 0 ≤ d) → (ds.length = fr.length → 0 ≤ d) → F d ≤ 1) ∧ (∀ d, (∀ m ∈ ds, m ≤ d) → F d = 1) := by
  obtain ⟨x, y, o, m, hp, hm, hy, rfl⟩ := build_interp h
  have hxy : x.length = y.length ∧ y.sum = 1 ∧ (∀ f ∈ y, 0 ≤ f) ∧ x.Pairwise (· < ·) ∧ ds ≠ [] ∧ (∀ a ∈ ds, a ∈ x) ∧ (∀ a ∈ x, a ∈ ds ∨ a = 0 ∧ 0 < ds.getD 0 0) ∧
      ∀ a, (ds.length = fr.length + 1 → ds.getD 0 0 ≤ a) → (ds.length = fr.length → 0 ≤ a) → x.getD 0 0 ≤ a := by
    unfold prepare at hp
    rcases hl with hl | ⟨hl, h0⟩
    · rw [if_pos hl] at hp
      cases hd : ds.min? with
      | none => rw [hd] at hp; cases hp
      | some a =>
        rw [hd] at hp
        cases hp
        refine ⟨by simpa using hl, by simpa using hsum, ?_, hinc, by rintro rfl; simp at hl, fun a ha => ha, fun a ha => .inl ha, fun a h1 _ => h1 hl⟩
        intro f hf
        rcases List.mem_cons.1 hf with rfl | hf
        · exact le_rfl
        · exact hpos f hf
    · rw [if_neg (by omega)] at hp
      cases ds with
      | nil => cases hp
      | cons d0 t =>
        have h0' : 0 < d0 := by simpa using h0
        simp only [if_pos h0'.ne'] at hp
        rw [if_pos (by simp only [hl]; omega)] at hp
        cases hp
        refine ⟨by simpa using hl, by simpa using hsum, ?_, List.pairwise_cons.2 ⟨?_, hinc⟩, by simp, fun a ha => by simp [ha], ?_, fun a _ h2 => ?_⟩
        · intro f hf
          rcases List.mem_cons.1 hf with rfl | hf
          · exact le_rfl
          · exact hpos f hf
        · intro a ha
          rcases List.mem_cons.1 ha with rfl | ha
          · exact h0'
          · exact h0'.trans ((List.pairwise_cons.1 hinc).1 a ha)
        · intro a ha
          rcases List.mem_cons.1 ha with rfl | ha
          · exact .inr ⟨rfl, h0⟩
          · exact .inl ha
        · simpa using h2 hl
  obtain ⟨hlen, hs1, hyp, hxi, hne, hsub, hsup, hfirst⟩ := hxy
  simp only at hF
  have hxlen : 0 < x.length := by
    rw [hlen]; exact List.length_pos_iff.2 hy
  -- the largest size is the last one, and the curve is one there
  have hlast : x.getD (x.length - 1) 0 = m := by
    refine le_antisymm (le_max hm (getD_mem (by omega))) ?_
    obtain ⟨hmem, -⟩ := List.max?_eq_some_iff.1 hm
    obtain ⟨i, hi, rfl⟩ := List.mem_iff_getElem.1 hmem
    rw [List.getD_eq_getElem?_getD, List.getElem?_eq_getElem (by omega), Option.getD_some]
    rcases Nat.lt_or_ge i (x.length - 1) with hlt | hge
    · exact (List.pairwise_iff_getElem.1 hxi _ _ hi (by omega) hlt).le
    · have : i = x.length - 1 := by omega
      simp only [this, le_refl]
  have hone : P.curve x ((List.range y.length).map fun i => (y.take (i + 1)).sum) m = 1 := by
    rw [← hlast, hF.through _ (by omega), prefix_getD y (by omega), show x.length - 1 + 1 = y.length by omega, List.take_length, hs1]
  have hmm : m ∈ x := (List.max?_eq_some_iff.1 hm).1
  set C := P.curve x ((List.range y.length).map fun i => (y.take (i + 1)).sum) with hC
  have hmono := hF.mono (prefix_pairwise hyp)
  refine ⟨fun d => if d > m then 1 else max 0 (C d), fun d => ?_, fun d => ?_, fun a b h1 h2 hab => ?_, fun d h1 h2 => ?_, fun d hd => ?_⟩
  · unfold Interp.cdf Interp.rawCdf
    simp only
    by_cases hd : d > m
    · rw [if_pos hd, if_pos hd, Py.ok_bind, max_eq_left zero_le_one]; rfl
    · rw [if_neg hd, if_neg hd, if_true, Py.ok_bind, max_eq_left (le_max_left _ _)]; rfl
  · simp only; split <;> simp
  · simp only
    have ha := hfirst a h1 h2
    by_cases hb : b > m
    · rw [if_pos hb]
      by_cases ha' : a > m
      · rw [if_pos ha']
      · rw [if_neg ha', ← hone]
        exact max_le (by rw [hone]; exact zero_le_one) (hmono a m ha (not_lt.1 ha') ⟨m, hmm, le_rfl⟩)
    · rw [if_neg hb, if_neg (by linarith)]
      exact max_le_max le_rfl (hmono a b ha hab ⟨m, hmm, not_lt.1 hb⟩)
  · simp only
    have ha := hfirst d h1 h2
    by_cases hd : d > m
    · rw [if_pos hd]
    · rw [if_neg hd]
      refine max_le zero_le_one ?_
      rw [← hone]
      exact hmono d m ha (not_lt.1 hd) ⟨m, hmm, le_rfl⟩
  · simp only
    have hmd : m ≤ d := by
      rcases hsup m hmm with hmds | ⟨h0, hpos0⟩
      · exact hd m hmds
      · have := hd _ (getD_mem (x := ds) (i := 0) (List.length_pos_iff.2 hne))
        linarith
    rcases hmd.lt_or_eq with hlt | rfl
    · rw [if_pos hlt]
    · rw [if_neg (lt_irrefl _), hone, max_eq_right zero_le_one]

/-- C133: the density is never negative, and over every interval between the smallest and the largest size it integrates to the increase of the cumulative distribution. -/
theorem C133_density (P : Pchip) (ds fr : List ℝ) (order : ℝ) (s : Interp) (h : PSDInterpolated P ds fr order = .ok s) (hF : Faithful P s.ds s.fraction_cdf) (hpos : ∀ f ∈ fr, 0 ≤ f)
    {a b : ℝ} (ha : s.ds.getD 0 0 < a) (hab : a ≤ b) (hb : b < s.d_excessive) :
    ∃ f F : ℝ → ℝ, (∀ d, s.pdf P d = .ok (f d) ∧ 0 ≤ f d ∧ s.cdf P d = .ok (F d)) ∧ ∫ d in a..b, f d = F b - F a := by
  obtain ⟨x, y, o, m, hp, hm, hy, rfl⟩ := build_interp h
  have hmm : m ∈ x := (List.max?_eq_some_iff.1 hm).1
  simp only at hF ha hb
  replace hpos : ∀ f ∈ y, 0 ≤ f := fun f hf => by
    rcases prepare_mem hp f hf with h | rfl
    · exact hpos f h
    · exact le_rfl
  set Y := (List.range y.length).map fun i => (y.take (i + 1)).sum with hY
  have hmono := hF.mono (prefix_pairwise hpos)
  have hnn : 0 ≤ P.curve x Y (x.getD 0 0) := by
    rw [hF.through 0 (List.length_pos_iff.2 (by rintro rfl; cases hmm)), hY, prefix_getD y (List.length_pos_iff.2 hy)]
    exact List.sum_nonneg fun f hf => hpos f (List.mem_of_mem_take hf)
  refine ⟨fun d => max 0 (P.slope x Y d), fun d => if d > m then 1 else max 0 (P.curve x Y d), fun d => ⟨?_, le_max_left _ _, ?_⟩, ?_⟩
  · unfold Interp.pdf Interp.rawPdf
    simp only
    rw [if_true, Py.ok_bind, max_eq_left (le_max_left _ _)]; rfl
  · unfold Interp.cdf Interp.rawCdf
    simp only
    by_cases hd : d > m
    · rw [if_pos hd, if_pos hd, Py.ok_bind, max_eq_left zero_le_one]; rfl
    · rw [if_neg hd, if_neg hd, if_true, Py.ok_bind, max_eq_left (le_max_left _ _)]; rfl
  · have hnonneg : ∀ d, x.getD 0 0 ≤ d → d ≤ m → 0 ≤ P.curve x Y d := fun d h1 h2 => hnn.trans (hmono _ _ le_rfl h1 ⟨m, hmm, h2⟩)
    have hslope : ∀ d ∈ Set.uIcc a b, max 0 (P.slope x Y d) = P.slope x Y d := by
      intro d hd
      rw [Set.uIcc_of_le hab] at hd
      refine max_eq_right ?_
      -- a function that does not decrease near `d` has a nonnegative derivative
      have hd1 : x.getD 0 0 < d := lt_of_lt_of_le ha hd.1
      have hd2 : d < m := lt_of_le_of_lt hd.2 hb
      have hmon : MonotoneOn (P.curve x Y) (Set.Icc (x.getD 0 0) m) := fun p hp q hq hpq => hmono p q hp.1 hpq ⟨m, hmm, hq.2⟩
      have h1 := hmon.derivWithin_nonneg (x := d)
      rwa [((hF.deriv d).hasDerivWithinAt (s := Set.Icc (x.getD 0 0) m)).derivWithin (uniqueDiffOn_Icc (hd1.trans hd2) d ⟨hd1.le, hd2.le⟩)] at h1
    simp only
    rw [intervalIntegral.integral_congr hslope, intervalIntegral.integral_eq_sub_of_hasDerivAt (fun d _ => hF.deriv d) (hF.cont.intervalIntegrable _ _),
      if_neg (by linarith), if_neg (by linarith), max_eq_right (hnonneg b (by linarith) hb.le), max_eq_right (hnonneg a ha.le (by linarith))]

/-- C133: for measured classes the interpolated distribution of a discrete one has, at each class boundary, the sum of its volume fractions below, and so one at the largest. -/
theorem C133_measured (P : Pchip) (ds fr : List ℝ) (order : ℝ) (D : Discrete) (s : Interp) (hD : ParticleSizeDistribution ds fr false order = .ok D) (hl : ds.length = fr.length + 1) (hfr : fr ≠ [])
    (h : D.interpolated P = .ok s) (hF : Faithful P s.ds s.fraction_cdf) (hpos : ∀ f ∈ D.fractions, 0 ≤ f) :
    (∀ i ≤ fr.length, s.cdf P (ds.getD i 0) = .ok (D.fractions.take i).sum) ∧ s.cdf P (ds.getD fr.length 0) = .ok 1 := by
  obtain ⟨f, b1, b2, -, -, -, -, -, -, -, -, -, b12, -⟩ := build_inv hD
  have hlen : D.fractions.length = fr.length := by rw [toVolume_length b2, inputFractions_length b1 hfr]
  have key : ∀ i ≤ fr.length, s.cdf P (ds.getD i 0) = .ok (D.fractions.take i).sum := by
    intro i hi
    have := (C133_through P D.ds D.fractions 3 s h hF hpos).1 (by rw [hlen, b12, hl]) i (by omega)
    rwa [b12] at this
  refine ⟨key, ?_⟩
  rw [key _ le_rfl, ← hlen, List.take_length, C69_volume_sum hD]

/-- C133, finding: with as many sizes as fractions and a first size of zero the attribute `d_minimum` is never set: percentiles and mean sizes raise `AttributeError`. -/
theorem C133_no_minimum (P : Pchip) (t fr : List ℝ) (order : ℝ) (s : Interp) (hl : t.length + 1 = fr.length) (h : PSDInterpolated P (0 :: t) fr order = .ok s) :
    (∀ brenth eps f, 0 < f → f < 1 → s.dn brenth eps P f = .error .attributeError) ∧ (∀ c p q, s.mean_size P c p q = .error .attributeError) := by
  obtain ⟨x, y, o, m, hp, hm, hy, rfl⟩ := build_interp h
  unfold prepare at hp
  rw [if_neg (by simp only [List.length_cons]; omega)] at hp
  simp only [ne_eq, not_true_eq_false, if_false] at hp
  cases hp
  refine ⟨fun brenth eps f h0 h1 => ?_, fun c p q => rfl⟩
  unfold Interp.dn
  simp only
  rw [if_neg (by rw [if_neg (by linarith)]; linarith), if_neg (by rw [if_neg (by linarith)]; linarith), if_neg (by rw [if_neg (by linarith)]; linarith)]
  rfl

/-! ### The dictionary of integrals -/

/-- the integral with weight `d ^ n` as computed at the first query -/
def fresh (P : Pchip) (s : Interp) (n d : ℝ) : ℝ := max (P.area s.ds.tail (s.ds.tail.map fun d => d ^ n * P.slope s.ds s.fraction_cdf d) d) 0

/-- Specification: `m` is not whole and loses its fraction to `k` -/
def LosesTo (m : ℝ) (k : ℤ) : Prop := (∀ j : ℤ, m ≠ j) ∧ |(k : ℝ)| ≤ |m| ∧ |m - k| < 1

/-- Specification: the caches that the queries of the orders `h` leave, in any order and at any sizes -/
inductive Reach (P : Pchip) (s : Interp) : List ℝ → Cache → Prop
  | nil : Reach P s [] fun _ => none
  | step {h c c' d n v} : Reach P s h c → s.basisIntegral P c d n = .ok (v, c') → Reach P s (h ++ [n]) c'

theorem truncZ_whole (k : ℤ) : truncZ (k : ℝ) = k := by
  unfold truncZ; split <;> simp

theorem truncZ_le (m : ℝ) : |(truncZ m : ℝ)| ≤ |m| ∧ |m - truncZ m| < 1 := by
  unfold truncZ
  split
  · rename_i h
    rw [abs_of_nonneg h, abs_of_nonneg (by exact_mod_cast Int.floor_nonneg.2 h), abs_of_nonneg (by linarith [Int.floor_le m])]
    exact ⟨Int.floor_le m, by linarith [Int.lt_floor_add_one m]⟩
  · rename_i h
    push Not at h
    have : (⌈m⌉ : ℝ) ≤ 0 := by exact_mod_cast Int.ceil_le.2 (by exact_mod_cast h.le)
    rw [abs_of_neg h, abs_of_nonpos this, abs_of_nonpos (by linarith [Int.le_ceil m])]
    exact ⟨by linarith [Int.le_ceil m], by linarith [Int.ceil_lt_add_one m]⟩

theorem losesTo_iff (m : ℝ) (k : ℤ) : LosesTo m k ↔ ¬ (truncZ m : ℝ) = m ∧ truncZ m = k := by
  obtain ⟨t1, t2⟩ := truncZ_le m
  constructor
  · rintro ⟨h1, h2, h3⟩
    refine ⟨fun h => h1 _ h.symm, ?_⟩
    by_contra hne
    have hd : (1 : ℝ) ≤ |((truncZ m - k : ℤ) : ℝ)| := by
      rw [← Int.cast_abs]; exact_mod_cast Int.one_le_abs (sub_ne_zero.2 hne)
    push_cast at hd
    have hm := h1 (truncZ m)
    have hk := h1 k
    rw [abs_lt] at t2 h3
    -- both lie within one of `m`, and not beyond it
    rcases le_or_gt 0 m with h0 | h0
    · rw [abs_of_nonneg h0] at t1 h2
      have a1 := (abs_le.1 t1).2; have a2 := (abs_le.1 h2).2
      rcases le_abs.1 hd with h | h <;> linarith
    · rw [abs_of_neg h0] at t1 h2
      have a1 := (abs_le.1 t1).1; have a2 := (abs_le.1 h2).1
      rcases le_abs.1 hd with h | h <;> linarith
  · rintro ⟨h1, rfl⟩
    refine ⟨fun j hj => h1 ?_, t1, t2⟩
    rw [hj, truncZ_whole]

open Classical in
/-- Specification: the order whose integral answers a query of order `n` after the queries `h`: for a whole `n` the last order not whole that loses its fraction to `n`, if there was one. -/
def effective (h : List ℝ) (n : ℝ) : ℝ :=
  if ∃ k : ℤ, n = k then ((h.filter fun m => ∃ k : ℤ, n = k ∧ LosesTo m k).getLast?).getD n else n

theorem effective_whole (h : List ℝ) (k : ℤ) : effective h k = ((h.filter fun m => decide (¬ (truncZ m : ℝ) = m ∧ truncZ m = k)).getLast?).getD k := by
  classical
  unfold effective
  rw [if_pos ⟨k, rfl⟩]
  congr 2
  refine List.filter_congr fun m _ => ?_
  refine decide_eq_decide.2 ⟨?_, fun hm => ⟨k, rfl, (losesTo_iff m k).2 hm⟩⟩
  rintro ⟨j, hj, hm⟩
  have : j = k := by exact_mod_cast hj.symm
  subst this
  exact (losesTo_iff m j).1 hm

theorem effective_not_whole (h : List ℝ) {n : ℝ} (hn : ¬ (truncZ n : ℝ) = n) : effective h n = n := by
  unfold effective
  rw [if_neg]
  rintro ⟨k, rfl⟩
  exact hn (by rw [truncZ_whole])

/-- the answer and the new cache -/
theorem query_spec {P : Pchip} {s : Interp} {c c' : Cache} {d n v : ℝ} (h : s.basisIntegral P c d n = .ok (v, c')) :
    (present c n = true ∧ c' = c ∧ ∃ f, c (truncZ n) = some f ∧ v = max (f d) 0) ∨
    (present c n = false ∧ c' = Function.update c (truncZ n) (some (P.area s.ds.tail (weighted P s n))) ∧ v = fresh P s n d) := by
  unfold Interp.basisIntegral at h
  obtain ⟨c1, hc, h⟩ := Py.bind_eq_ok.1 h
  unfold fillCache at hc
  cases hp : present c n with
  | true =>
    rw [hp, if_pos rfl] at hc
    cases hc
    cases hf : c (truncZ n) with
    | none => rw [hf] at h; cases h
    | some f =>
      rw [hf] at h
      cases h
      exact .inl ⟨rfl, rfl, f, rfl, rfl⟩
  | false =>
    rw [hp, if_neg (by simp)] at hc
    split at hc
    · obtain ⟨_, -, hc⟩ := Py.bind_eq_ok.1 hc
      cases hc
      rw [Function.update_self] at h
      cases h
      exact .inr ⟨rfl, rfl, rfl⟩
    · cases hc

theorem reach_cache {P : Pchip} {s : Interp} {h : List ℝ} {c : Cache} (hr : Reach P s h c) (k : ℤ) :
    ∀ f, c k = some f → ∀ d, max (f d) 0 = fresh P s (effective h k) d := by
  induction hr with
  | nil => intro f hf; cases hf
  | @step h c c' d n v hr hq ih =>
    intro f hf d'
    rw [effective_whole, List.filter_append]
    have ih' := fun g (hg : c k = some g) => ih g hg d'
    rw [effective_whole] at ih'
    rcases query_spec hq with ⟨hp, rfl, -⟩ | ⟨hp, rfl, -⟩
    · have hw : (truncZ n : ℝ) = n := by
        unfold present at hp
        exact (of_decide_eq_true hp).1
      rw [List.filter_cons_of_neg (by simp [hw]), List.filter_nil, List.append_nil]
      exact ih' f hf
    · by_cases hk : truncZ n = k
      · subst hk
        rw [Function.update_self] at hf
        cases hf
        by_cases hw : (truncZ n : ℝ) = n
        · -- a whole order not in the cache: no query lost its fraction to it before
          rw [List.filter_cons_of_neg (by simp [hw]), List.filter_nil, List.append_nil]
          have hnone : c (truncZ n) = none := by
            unfold present at hp
            have := of_decide_eq_false hp
            cases hc : c (truncZ n) with
            | none => rfl
            | some g => exact absurd ⟨hw, by rw [hc]; rfl⟩ this
          have hempty : ∀ (h : List ℝ) (c : Cache), Reach P s h c → ∀ k : ℤ, c k = none → h.filter (fun m => decide (¬ (truncZ m : ℝ) = m ∧ truncZ m = k)) = [] := by
            intro h c hr
            induction hr with
            | nil => intros; rfl
            | @step h c c' d n v hr hq ih =>
              intro k hk
              rw [List.filter_append]
              rcases query_spec hq with ⟨hp, rfl, -⟩ | ⟨hp, rfl, -⟩
              · have hw : (truncZ n : ℝ) = n := by
                  unfold present at hp
                  exact (of_decide_eq_true hp).1
                rw [ih k hk, List.filter_cons_of_neg (by simp [hw])]; rfl
              · by_cases hkn : k = truncZ n
                · subst hkn
                  rw [Function.update_self] at hk; cases hk
                · rw [Function.update_of_ne hkn] at hk
                  rw [ih k hk, List.filter_cons_of_neg (by simp [Ne.symm hkn])]; rfl
          rw [hempty h c hr _ hnone]
          simp only [List.getLast?_nil, Option.getD_none, hw]
          rfl
        · rw [List.filter_cons_of_pos (by simp [hw]), List.filter_nil, List.getLast?_append]
          rfl
      · rw [Function.update_of_ne (Ne.symm hk)] at hf
        rw [List.filter_cons_of_neg (by simp [hk]), List.filter_nil, List.append_nil]
        exact ih' f hf

/-- C133: what every query of the weighted integral answers, after any history of queries: the integral of the effective order. -/
theorem C133_history (P : Pchip) (s : Interp) {h : List ℝ} {c c' : Cache} {d n v : ℝ} (hr : Reach P s h c) (hq : s.basisIntegral P c d n = .ok (v, c')) : v = fresh P s (effective h n) d := by
  rcases query_spec hq with ⟨hp, -, f, hf, rfl⟩ | ⟨hp, -, rfl⟩
  · have hw : (truncZ n : ℝ) = n := by
      unfold present at hp
      exact (of_decide_eq_true hp).1
    have := reach_cache hr (truncZ n) f hf d
    rwa [hw] at this
  · by_cases hw : (truncZ n : ℝ) = n
    · have hr' := Reach.step hr hq
      rcases query_spec hq with ⟨hp', -⟩ | ⟨-, rfl, -⟩
      · rw [hp] at hp'; cases hp'
      · have := reach_cache hr' (truncZ n) _ (Function.update_self _ _ _) d
        rw [effective_whole, List.filter_append, List.filter_cons_of_neg (by simp [hw]), List.filter_nil, List.append_nil, ← effective_whole, hw] at this
        rw [← this]; rfl
    · rw [effective_not_whole h hw]

/-- C133: so as long as only whole orders are queried, every answer is what the first query would have given. -/
theorem C133_whole_orders (P : Pchip) (s : Interp) {h : List ℝ} {c c' : Cache} {d n v : ℝ} (hr : Reach P s h c) (hw : ∀ m ∈ h, ∃ k : ℤ, m = k) (hq : s.basisIntegral P c d n = .ok (v, c')) : v = fresh P s n d := by
  rw [C133_history P s hr hq]
  by_cases hn : (truncZ n : ℝ) = n
  · rw [← hn, effective_whole]
    have : h.filter (fun m => decide (¬ (truncZ m : ℝ) = m ∧ truncZ m = truncZ n)) = [] := by
      rw [List.filter_eq_nil_iff]
      intro m hm
      obtain ⟨k, rfl⟩ := hw m hm
      simp [truncZ_whole]
    rw [this]; rfl
  · rw [effective_not_whole h hn]

/-- C133, finding: an order that is not whole spoils the whole order it loses its fraction to: the next query of that one answers with the integral of the other. -/
theorem C133_fraction_spoils (P : Pchip) (s : Interp) {h : List ℝ} {c c1 c2 : Cache} {d d' m v w : ℝ} {k : ℤ} (hr : Reach P s h c) (hm : LosesTo m k) (h1 : s.basisIntegral P c d m = .ok (v, c1))
    (h2 : s.basisIntegral P c1 d' k = .ok (w, c2)) : w = fresh P s m d' := by
  rw [C133_history P s (Reach.step hr h1) h2, effective_whole, List.filter_append, List.filter_cons_of_pos (by simpa using (losesTo_iff m k).1 hm), List.filter_nil, List.getLast?_append]
  rfl

theorem definite_spec {P : Pchip} {s : Interp} {h : List ℝ} {c c' : Cache} {a b n v : ℝ} (hr : Reach P s h c) (hq : s.definite P c a b n = .ok (v, c')) :
    v = fresh P s (effective h n) b - fresh P s (effective (h ++ [n]) n) a ∧ Reach P s (h ++ [n] ++ [n]) c' := by
  unfold Interp.definite at hq
  obtain ⟨⟨x, c1⟩, h1, hq⟩ := Py.bind_eq_ok.1 hq
  obtain ⟨⟨y, c2⟩, h2, hq⟩ := Py.bind_eq_ok.1 hq
  cases hq
  have hr1 := Reach.step hr h1
  exact ⟨by rw [C133_history P s hr h1, C133_history P s hr1 h2], Reach.step hr1 h2⟩

theorem effective_of_whole {h : List ℝ} (hw : ∀ m ∈ h, ∃ k : ℤ, m = k) (n : ℝ) : effective h n = n := by
  by_cases hn : (truncZ n : ℝ) = n
  · rw [← hn, effective_whole]
    have : h.filter (fun m => decide (¬ (truncZ m : ℝ) = m ∧ truncZ m = truncZ n)) = [] := by
      rw [List.filter_eq_nil_iff]
      intro m hm
      obtain ⟨k, rfl⟩ := hw m hm
      simp [truncZ_whole]
    rw [this]; rfl
  · rw [effective_not_whole h hn]

/-- C133: the mean sizes of whole orders, after any history of queries of whole orders, are the roots of the quotients of the two moments. -/
theorem C133_mean_size (P : Pchip) (s : Interp) {h : List ℝ} {c c' : Cache} {v : ℝ} (p q o : ℤ) (hr : Reach P s h c) (hw : ∀ m ∈ h, ∃ k : ℤ, m = k) (ho : s.order = o) (hpq : p ≠ q)
    (hq : s.mean_size P c p q = .ok (v, c')) :
    ∃ lo, s.d_minimum = some lo ∧ fresh P s (q - o) s.d_excessive - fresh P s (q - o) lo ≠ 0 ∧
      ppow ((fresh P s (p - o) s.d_excessive - fresh P s (p - o) lo) / (fresh P s (q - o) s.d_excessive - fresh P s (q - o) lo)) (1 / (p - q)) = .ok v := by
  have hne : ¬ (p : ℝ) = q := by exact_mod_cast hpq
  unfold Interp.mean_size Interp.minimum at hq
  simp only [if_neg hne] at hq
  cases hm : s.d_minimum with
  | none => rw [hm] at hq; cases hq
  | some lo =>
    simp only [hm, Py.ok_bind] at hq
    obtain ⟨⟨D, c1⟩, h1, hq⟩ := Py.bind_eq_ok.1 hq
    obtain ⟨⟨N, c2⟩, h2, hq⟩ := Py.bind_eq_ok.1 hq
    obtain ⟨r, h3, hq⟩ := Py.bind_eq_ok.1 hq
    obtain ⟨e, h4, hq⟩ := Py.bind_eq_ok.1 hq
    obtain ⟨w, h5, hq⟩ := Py.bind_eq_ok.1 hq
    cases hq
    rw [ho] at h1 h2
    obtain ⟨d1, r1⟩ := definite_spec hr h1
    obtain ⟨d2, -⟩ := definite_spec r1 h2
    have w1 : ∀ m ∈ h ++ [(q : ℝ) - o], ∃ k : ℤ, m = k := by
      intro m hm
      rcases List.mem_append.1 hm with hm | hm
      · exact hw m hm
      · exact ⟨q - o, by rw [List.mem_singleton.1 hm]; push_cast; rfl⟩
    have w2 : ∀ m ∈ h ++ [(q : ℝ) - o] ++ [(q : ℝ) - o], ∃ k : ℤ, m = k := by
      intro m hm
      rcases List.mem_append.1 hm with hm | hm
      · exact w1 m hm
      · exact ⟨q - o, by rw [List.mem_singleton.1 hm]; push_cast; rfl⟩
    have w3 : ∀ m ∈ h ++ [(q : ℝ) - o] ++ [(q : ℝ) - o] ++ [(p : ℝ) - o], ∃ k : ℤ, m = k := by
      intro m hm
      rcases List.mem_append.1 hm with hm | hm
      · exact w2 m hm
      · exact ⟨p - o, by rw [List.mem_singleton.1 hm]; push_cast; rfl⟩
    rw [effective_of_whole hw, effective_of_whole w1] at d1
    rw [effective_of_whole w2, effective_of_whole w3] at d2
    obtain ⟨hD, rfl⟩ := pdiv_inv h3
    obtain ⟨-, rfl⟩ := pdiv_inv h4
    simp only at hD h5
    rw [d1] at hD
    rw [d1, d2] at h5
    exact ⟨lo, rfl, hD, h5⟩

/-- the interpolation of data on a line through the origin of slope 1/8, and of two points by their chord -/
def chords : Pchip where
  check _ _ := .ok ()
  curve _ _ d := d / 8
  slope _ _ _ := 1 / 8
  area x y d := y.getD 0 0 * (d - x.getD 0 0) + (y.getD 1 0 - y.getD 0 0) / (2 * (x.getD 1 0 - x.getD 0 0)) * (d - x.getD 0 0) ^ 2

theorem chords_built : PSDInterpolated chords [0, 4, 8] [1 / 2, 1 / 2] = .ok ⟨3, true, [0, 4, 8], [0, 1 / 2, 1 / 2], some 0, 8, [0, 1 / 2, 1]⟩ := by
  have h1 : [(0 : ℝ), 4, 8].min? = some 0 := by norm_num [List.min?, List.foldl]
  have h2 : [(0 : ℝ), 4, 8].max? = some 8 := by norm_num [List.max?, List.foldl]
  unfold PSDInterpolated prepare
  simp only [List.length_cons, List.length_nil, if_true, h1, Py.ok_bind, h2, Seq.cumsum, List.foldl_cons, List.foldl_nil, chords]
  norm_num [Py.pure_eq]

example : ∃ s, PSDInterpolated chords [0, 4, 8] [1 / 2, 1 / 2] = .ok s ∧ Faithful chords s.ds s.fraction_cdf := by
  refine ⟨_, chords_built, ?_, ?_, ?_, ?_⟩
  · intro i hi
    simp only [List.length_cons, List.length_nil] at hi
    interval_cases i <;> norm_num [chords]
  · intro _ a b _ hab _
    simp only [chords]
    linarith
  · intro d
    exact (hasDerivAt_id d).div_const 8
  · exact continuous_const

theorem chords_fresh (n d : ℝ) : fresh chords ⟨3, true, [0, 4, 8], [0, 1 / 2, 1 / 2], some 0, 8, [0, 1 / 2, 1]⟩ n d =
    max ((4 : ℝ) ^ n / 8 * (d - 4) + ((8 : ℝ) ^ n - 4 ^ n) / 64 * (d - 4) ^ 2) 0 := by
  unfold fresh
  simp only [chords, List.tail_cons, List.map_cons, List.map_nil, List.getD_cons_zero, List.getD_cons_succ]
  congr 1
  ring

theorem chords_ask (c : Cache) (d n : ℝ) (hn : present c n = false) :
    Interp.basisIntegral chords ⟨3, true, [0, 4, 8], [0, 1 / 2, 1 / 2], some 0, 8, [0, 1 / 2, 1]⟩ c d n =
      .ok (fresh chords ⟨3, true, [0, 4, 8], [0, 1 / 2, 1 / 2], some 0, 8, [0, 1 / 2, 1]⟩ n d,
        Function.update c (truncZ n) (some (chords.area [4, 8] (weighted chords ⟨3, true, [0, 4, 8], [0, 1 / 2, 1 / 2], some 0, 8, [0, 1 / 2, 1]⟩ n)))) := by
  unfold Interp.basisIntegral fillCache
  rw [hn]
  simp only [Bool.false_eq_true, if_false, if_true, chords, Py.ok_bind, Py.pure_eq, Function.update_self, List.tail_cons]
  rfl

theorem chords_again (c : Cache) (d n : ℝ) (hn : present c n = true) {f : ℝ → ℝ} (hf : c (truncZ n) = some f) :
    Interp.basisIntegral chords ⟨3, true, [0, 4, 8], [0, 1 / 2, 1 / 2], some 0, 8, [0, 1 / 2, 1]⟩ c d n = .ok (max (f d) 0, c) := by
  unfold Interp.basisIntegral fillCache
  rw [hn]
  simp only [if_true, Py.ok_bind, hf, Py.pure_eq]

theorem chords_definite {c : Cache} {a b : ℝ} {k : ℤ} {n : ℝ} (hn : n = k) (hc : c k = none) :
    ∃ c', Interp.definite chords ⟨3, true, [0, 4, 8], [0, 1 / 2, 1 / 2], some 0, 8, [0, 1 / 2, 1]⟩ c a b n =
      .ok (fresh chords ⟨3, true, [0, 4, 8], [0, 1 / 2, 1 / 2], some 0, 8, [0, 1 / 2, 1]⟩ n b - fresh chords ⟨3, true, [0, 4, 8], [0, 1 / 2, 1 / 2], some 0, 8, [0, 1 / 2, 1]⟩ n a, c') ∧
      ∀ j, j ≠ k → c' j = c j := by
  have ht : truncZ n = k := by rw [hn, truncZ_whole]
  unfold Interp.definite
  rw [chords_ask c b n (by unfold present; simp [ht, hc]), Py.ok_bind]
  have h2 : present (Function.update c (truncZ n) (some (chords.area [4, 8] (weighted chords ⟨3, true, [0, 4, 8], [0, 1 / 2, 1 / 2], some 0, 8, [0, 1 / 2, 1]⟩ n)))) n = true := by
    unfold present; simp [hn, truncZ_whole]
  rw [chords_again _ a n h2 (Function.update_self _ _ _), Py.ok_bind]
  exact ⟨_, rfl, fun j hj => by rw [ht]; exact Function.update_of_ne hj _ _⟩

theorem chords_present {c : Cache} {a b : ℝ} {k : ℤ} {n : ℝ} {f : ℝ → ℝ} (hn : n = k) (hc : c k = some f) :
    Interp.definite chords ⟨3, true, [0, 4, 8], [0, 1 / 2, 1 / 2], some 0, 8, [0, 1 / 2, 1]⟩ c a b n = .ok (max (f b) 0 - max (f a) 0, c) := by
  have ht : truncZ n = k := by rw [hn, truncZ_whole]
  have h2 : present c n = true := by unfold present; simp [hn, hc, truncZ_whole]
  unfold Interp.definite
  rw [chords_again _ b n h2 (by rw [ht]; exact hc), Py.ok_bind, chords_again _ a n h2 (by rw [ht]; exact hc), Py.ok_bind]
  rfl

theorem fresh_values : (fresh chords ⟨3, true, [0, 4, 8], [0, 1 / 2, 1 / 2], some 0, 8, [0, 1 / 2, 1]⟩ 0 8 = 1 / 2 ∧ fresh chords ⟨3, true, [0, 4, 8], [0, 1 / 2, 1 / 2], some 0, 8, [0, 1 / 2, 1]⟩ 0 0 = 0) ∧
    fresh chords ⟨3, true, [0, 4, 8], [0, 1 / 2, 1 / 2], some 0, 8, [0, 1 / 2, 1]⟩ 1 8 = 3 ∧ fresh chords ⟨3, true, [0, 4, 8], [0, 1 / 2, 1 / 2], some 0, 8, [0, 1 / 2, 1]⟩ 1 0 = 0 := by
  refine ⟨⟨?_, ?_⟩, ?_, ?_⟩ <;> rw [chords_fresh] <;> simp only [Real.rpow_zero, Real.rpow_one] <;> norm_num

/-- C133, finding: for half of the particles up to 4 and half up to 8, the volume mean size is 6; asked for after a single query of the integral of order -1/2, as the density in the basis 2.5 makes it, it is more than 14, although no particle is larger than 8. -/
theorem C133_spoiled_mean : ∃ s c c1 c2 u v, PSDInterpolated chords [0, 4, 8] [1 / 2, 1 / 2] = .ok s ∧ s.mean_size chords (fun _ => none) 4 3 = .ok (6, c1) ∧
    s.basisIntegral chords (fun _ => none) 8 (-1 / 2) = .ok (u, c) ∧ s.mean_size chords c 4 3 = .ok (v, c2) ∧ 14 < v := by
  have hp1 : (3 : ℝ) - 3 = ((0 : ℤ) : ℝ) := by norm_num
  have hp2 : (4 : ℝ) - 3 = ((1 : ℤ) : ℝ) := by norm_num
  obtain ⟨⟨f1, f2⟩, f3, f4⟩ := fresh_values
  have hneg : truncZ (-1 / 2) = 0 := by
    unfold truncZ
    rw [if_neg (by norm_num), Int.ceil_eq_iff]; norm_num
  set s : Interp := ⟨3, true, [0, 4, 8], [0, 1 / 2, 1 / 2], some 0, 8, [0, 1 / 2, 1]⟩ with hs
  obtain ⟨c1, e1, k1⟩ := chords_definite (c := fun _ => none) (a := 0) (b := 8) hp1 rfl
  obtain ⟨c2, e2, -⟩ := chords_definite (c := c1) (a := 0) (b := 8) hp2 (by rw [k1 1 (by norm_num)])
  have hfirst : s.mean_size chords (fun _ => none) 4 3 = .ok (6, c2) := by
    unfold Interp.mean_size Interp.minimum
    simp only [if_neg (show ¬ (4 : ℝ) = 3 by norm_num), hs, Py.ok_bind]
    rw [e1, Py.ok_bind, e2, Py.ok_bind]
    simp only [show (3 : ℝ) - 3 = 0 by norm_num, show (4 : ℝ) - 3 = 1 by norm_num, ← hs, f1, f2, f3, f4]
    rw [pdiv_ok (by norm_num), Py.ok_bind, pdiv_ok (by norm_num), Py.ok_bind, ppow_ok (by norm_num), Py.ok_bind]
    norm_num [Py.pure_eq]
  have hask := chords_ask (fun _ => none) 8 (-1 / 2) (by unfold present; simp)
  rw [hneg] at hask
  set f := chords.area [4, 8] (weighted chords s (-1 / 2)) with hf
  set c := Function.update (fun _ => none : Cache) 0 (some f) with hc
  have hG : ∀ d, max (f d) 0 = fresh chords s (-1 / 2) d := fun d => rfl
  have e3 := chords_present (c := c) (a := 0) (b := 8) hp1 (Function.update_self _ _ _)
  obtain ⟨c4, e4, -⟩ := chords_definite (c := c) (a := 0) (b := 8) hp2 (Function.update_of_ne (by norm_num) _ _)
  have h4 : (4 : ℝ) ^ (-1 / 2 : ℝ) = 1 / 2 := by
    rw [show (4 : ℝ) = 2 ^ (2 : ℝ) by norm_num, ← Real.rpow_mul (by norm_num)]; norm_num
  obtain ⟨w, hw⟩ : ∃ w, w = (8 : ℝ) ^ (-1 / 2 : ℝ) := ⟨_, rfl⟩
  have hw0 : 0 < w := by rw [hw]; positivity
  have hw2 : w ^ 2 = 1 / 8 := by
    rw [hw, ← Real.rpow_natCast, ← Real.rpow_mul (by norm_num)]
    norm_num [Real.rpow_neg_one]
  have hw1 : w < 5 / 14 := by nlinarith
  have g8 : max (f 8) 0 = (1 / 2 + w) / 4 := by
    rw [hG, chords_fresh, h4, ← hw, max_eq_left (by nlinarith)]; ring
  have g0 : max (f 0) 0 = 0 := by
    rw [hG, chords_fresh, h4, ← hw, max_eq_right (by nlinarith)]
  refine ⟨s, c, c2, c4, _, 3 / ((1 / 2 + w) / 4), chords_built, hfirst, hask, ?_, ?_⟩
  · unfold Interp.mean_size Interp.minimum
    simp only [if_neg (show ¬ (4 : ℝ) = 3 by norm_num), hs, Py.ok_bind]
    rw [e3, Py.ok_bind, e4, Py.ok_bind]
    simp only [show (4 : ℝ) - 3 = 1 by norm_num, ← hs, f3, f4, g8, g0]
    rw [sub_zero, sub_zero, pdiv_ok (by positivity), Py.ok_bind, pdiv_ok (by norm_num), Py.ok_bind, ppow_ok (by positivity), Py.ok_bind]
    norm_num [Py.pure_eq]
  · rw [lt_div_iff₀ (by positivity)]
    linarith

end Verif.Psd
