import Verif.Props.PsdQueries
import Verif.Props.Sequences

/-! C69: fractions of discrete distributions. -/

open Real

noncomputable section

namespace Verif.Psd

/-- the value of a computation, 0 on an error -/
def val (r : Py ℝ) : ℝ := match r with
  | .ok v => v
  | .error _ => 0

theorem mapM_inv {α : Type} {f : α → Py ℝ} {l : List α} {r : List ℝ} (h : l.mapM f = .ok r) :
    r = l.map (fun x => val (f x)) ∧ ∀ x ∈ l, f x = .ok (val (f x)) := by
  induction l generalizing r with
  | nil => cases h; exact ⟨rfl, by simp⟩
  | cons a l ih =>
    rw [List.mapM_cons] at h
    obtain ⟨y, hy, h⟩ := Py.bind_eq_ok.mp h
    obtain ⟨ys, hys, h⟩ := Py.bind_eq_ok.mp h
    obtain ⟨e, hall⟩ := ih hys
    have hr := Except.ok.inj h
    have hv : val (f a) = y := by rw [hy]; rfl
    refine ⟨by rw [List.map_cons, hv, ← e]; exact hr.symm, ?_⟩
    rintro x (_ | ⟨_, hx⟩)
    · rw [hv]; exact hy
    · exact hall x hx

theorem sum_map_div (l : List ℝ) (c : ℝ) : (l.map fun i => i / c).sum = l.sum / c := by
  induction l with
  | nil => simp
  | cons a l ih => simp only [List.map_cons, List.sum_cons, ih, add_div]

theorem pdiv_inv {a b v : ℝ} (h : a /ₚ b = .ok v) : b ≠ 0 ∧ v = a / b := by
  by_cases hb : b = 0
  · subst hb; rw [pdiv_zero] at h; cases h
  · rw [pdiv_ok hb] at h; exact ⟨hb, (Except.ok.inj h).symm⟩

/-- dividing a list by its sum -/
theorem normalise_inv {l r : List ℝ} (h : (l.mapM fun i => i /ₚ l.sum) = .ok r) (hl : l ≠ []) :
    l.sum ≠ 0 ∧ r = l.map (fun i => i / l.sum) ∧ r.sum = 1 := by
  obtain ⟨e, hall⟩ := mapM_inv h
  have hs : l.sum ≠ 0 := by
    obtain ⟨a, ha⟩ := List.exists_mem_of_ne_nil l hl
    exact (pdiv_inv (hall a ha)).1
  have e2 : r = l.map fun i => i / l.sum := by
    rw [e]; refine List.map_congr_left fun a _ => ?_
    rw [pdiv_ok hs]; rfl
  exact ⟨hs, e2, by rw [e2, sum_map_div, div_self hs]⟩

theorem normalise_ok {l : List ℝ} (h : l.sum ≠ 0) : (l.mapM fun i => i /ₚ l.sum) = .ok (l.map fun i => i / l.sum) :=
  mapM_ok l fun x _ => pdiv_ok h

/-! ### What a successful construction consists of -/

theorem build_inv {ds fr : List ℝ} {cdf : Bool} {order : ℝ} {s : Discrete} (h : ParticleSizeDistribution ds fr cdf order = .ok s) :
    ∃ f, inputFractions ds fr cdf = .ok f ∧ toVolume ds (decide (ds.length = fr.length + 1)) order f = .ok s.fractions ∧
      fromVolume ds (decide (ds.length = fr.length + 1)) s.fractions 3 = .ok s.number_fractions ∧
      fromVolume ds (decide (ds.length = fr.length + 1)) s.fractions 2 = .ok s.length_fractions ∧
      fromVolume ds (decide (ds.length = fr.length + 1)) s.fractions 1 = .ok s.area_fractions ∧
      (∃ x, Seq.pyGet ds (-1) = .ok x) ∧ Seq.cumsum s.fractions = .ok s.volume_cdf ∧ Seq.cumsum s.area_fractions = .ok s.area_cdf ∧
      Seq.cumsum s.length_fractions = .ok s.length_cdf ∧ Seq.cumsum s.number_fractions = .ok s.number_cdf ∧ s.N = f.length ∧ s.ds = ds ∧
      s.size_classes = decide (ds.length = fr.length + 1) := by
  unfold ParticleSizeDistribution at h
  obtain ⟨f, h1, h⟩ := Py.bind_eq_ok.mp h
  obtain ⟨v, h2, h⟩ := Py.bind_eq_ok.mp h
  obtain ⟨a, h3, h⟩ := Py.bind_eq_ok.mp h
  obtain ⟨b, h4, h⟩ := Py.bind_eq_ok.mp h
  obtain ⟨c, h5, h⟩ := Py.bind_eq_ok.mp h
  obtain ⟨x, h6, h⟩ := Py.bind_eq_ok.mp h
  obtain ⟨c1, h7, h⟩ := Py.bind_eq_ok.mp h
  obtain ⟨c2, h8, h⟩ := Py.bind_eq_ok.mp h
  obtain ⟨c3, h9, h⟩ := Py.bind_eq_ok.mp h
  obtain ⟨c4, h10, h⟩ := Py.bind_eq_ok.mp h
  obtain rfl := Except.ok.inj h
  exact ⟨f, h1, h2, h3, h4, h5, ⟨x, h6⟩, h7, h8, h9, h10, rfl, rfl, rfl⟩

theorem build_ok {ds fr : List ℝ} {cdf : Bool} {order : ℝ} {s : Discrete} {f : List ℝ} (h1 : inputFractions ds fr cdf = .ok f)
    (h2 : toVolume ds (decide (ds.length = fr.length + 1)) order f = .ok s.fractions)
    (h3 : fromVolume ds (decide (ds.length = fr.length + 1)) s.fractions 3 = .ok s.number_fractions)
    (h4 : fromVolume ds (decide (ds.length = fr.length + 1)) s.fractions 2 = .ok s.length_fractions)
    (h5 : fromVolume ds (decide (ds.length = fr.length + 1)) s.fractions 1 = .ok s.area_fractions)
    (h6 : ∃ x, Seq.pyGet ds (-1) = .ok x) (h7 : Seq.cumsum s.fractions = .ok s.volume_cdf) (h8 : Seq.cumsum s.area_fractions = .ok s.area_cdf)
    (h9 : Seq.cumsum s.length_fractions = .ok s.length_cdf) (h10 : Seq.cumsum s.number_fractions = .ok s.number_cdf) (h11 : s.N = f.length)
    (h12 : s.ds = ds) (h13 : s.size_classes = decide (ds.length = fr.length + 1)) : ParticleSizeDistribution ds fr cdf order = .ok s := by
  obtain ⟨x, h6⟩ := h6
  unfold ParticleSizeDistribution
  rw [h1]; simp only [Py.ok_bind]
  rw [h2]; simp only [Py.ok_bind]
  rw [h3, h4, h5, h6]; simp only [Py.ok_bind]
  rw [h7, h8, h9, h10]; simp only [Py.ok_bind]
  rw [← h11, ← h13]
  cases s; simp only at h12 ⊢; subst h12; rfl

theorem cumsum_ne {l r : List ℝ} (h : Seq.cumsum l = .ok r) : l ≠ [] := by
  rintro rfl; cases h

theorem fromVolume_inv {ds v r : List ℝ} {sc : Bool} {p : ℝ} (h : fromVolume ds sc v p = .ok r) (hv : v ≠ []) :
    (∀ x ∈ v.zipIdx, di_power ds sc x.2 p = .ok (val (di_power ds sc x.2 p)) ∧ val (di_power ds sc x.2 p) ≠ 0) ∧
    ∃ S, S ≠ 0 ∧ S = (v.zipIdx.map fun x => x.1 / val (di_power ds sc x.2 p)).sum ∧
      r = v.zipIdx.map (fun x => x.1 / val (di_power ds sc x.2 p) / S) ∧ r.sum = 1 := by
  unfold fromVolume at h
  obtain ⟨l, hl, h⟩ := Py.bind_eq_ok.mp h
  obtain ⟨e, hall⟩ := mapM_inv hl
  have hd : ∀ x ∈ v.zipIdx, di_power ds sc x.2 p = .ok (val (di_power ds sc x.2 p)) ∧ val (di_power ds sc x.2 p) ≠ 0 := fun x hx => by
    have := hall x hx
    obtain ⟨d, hd, h2⟩ := Py.bind_eq_ok.mp this
    rw [hd]; exact ⟨rfl, (pdiv_inv h2).1⟩
  have e' : l = v.zipIdx.map fun x => x.1 / val (di_power ds sc x.2 p) := by
    rw [e]; refine List.map_congr_left fun x hx => ?_
    obtain ⟨h1, h2⟩ := hd x hx
    have : (do
        let Vp : ℝ ← di_power ds sc x.2 p
        x.1 /ₚ Vp) = .ok (x.1 / val (di_power ds sc x.2 p)) := by
      rw [h1, Py.ok_bind]
      exact pdiv_ok h2
    rw [this]; rfl
  have hne : l ≠ [] := by
    rw [e']; simpa using hv
  obtain ⟨h1, h2, h3⟩ := normalise_inv h hne
  refine ⟨hd, l.sum, h1, by rw [e'], ?_, h3⟩
  rw [h2]; conv_lhs => rw [e']
  rw [List.map_map, ← e']; rfl

/-- lengths are kept -/
theorem toVolume_length {ds f v : List ℝ} {sc : Bool} {order : ℝ} (h : toVolume ds sc order f = .ok v) : v.length = f.length := by
  unfold toVolume at h
  split_ifs at h
  · obtain ⟨l, hl, h⟩ := Py.bind_eq_ok.mp h
    rw [(mapM_inv h).1, (mapM_inv hl).1]; simp
  · rw [Except.ok.inj h]

theorem inputFractions_length {ds fr f : List ℝ} {cdf : Bool} (h : inputFractions ds fr cdf = .ok f) (hfr : fr ≠ []) : f.length = fr.length := by
  have hp : 0 < fr.length := List.length_pos_iff.mpr hfr
  have hd : ∀ r, Seq.diff fr 1 = .ok r → r.length = fr.length - 1 := fun r hr => by
    have : Seq.diff fr 1 = .ok (Seq.diff1 fr) := rfl
    rw [this] at hr; rw [← Except.ok.inj hr]; simp [Seq.diff1]
  unfold inputFractions at h
  split_ifs at h
  · obtain ⟨a, -, h⟩ := Py.bind_eq_ok.mp h
    obtain ⟨r, hr, h⟩ := Py.bind_eq_ok.mp h
    rw [← Except.ok.inj h, List.length_cons, hd r hr]; omega
  · obtain ⟨r, hr, h⟩ := Py.bind_eq_ok.mp h
    rw [← Except.ok.inj h, List.length_cons, hd r hr]; omega
  · obtain ⟨r, hr, h⟩ := Py.bind_eq_ok.mp h
    rw [← Except.ok.inj h]; simp
  · rw [Except.ok.inj h]

theorem inputFractions_normalised {ds fr f : List ℝ} (h : inputFractions ds fr false = .ok f) : f.sum = 1 := by
  simp only [inputFractions, Bool.false_eq_true, if_false] at h
  split_ifs at h with h1
  · obtain ⟨r, hr, h⟩ := Py.bind_eq_ok.mp h
    obtain ⟨h0, rfl⟩ := pdiv_inv hr
    rw [← Except.ok.inj h]
    have e : (fr.map fun i => if i ≠ 0 then i * (1 / fr.sum) else 0) = fr.map fun i => i / fr.sum := by
      refine List.map_congr_left fun i _ => ?_
      split_ifs with hi
      · ring
      · push Not at hi; rw [hi, zero_div]
    rw [e, sum_map_div, div_self h0]
  · rw [← Except.ok.inj h]; simpa using h1

/-! ### C69 -/

/-- C69: whatever it was given, the number, length and area fractions of a discrete distribution each add up to one -/
theorem C69_fractions_sum {ds fr : List ℝ} {cdf : Bool} {order : ℝ} {s : Discrete} (h : ParticleSizeDistribution ds fr cdf order = .ok s) :
    s.number_fractions.sum = 1 ∧ s.length_fractions.sum = 1 ∧ s.area_fractions.sum = 1 := by
  obtain ⟨f, -, -, h3, h4, h5, -, h7, -⟩ := build_inv h
  have hv := cumsum_ne h7
  exact ⟨(fromVolume_inv h3 hv).2.choose_spec.2.2.2, (fromVolume_inv h4 hv).2.choose_spec.2.2.2, (fromVolume_inv h5 hv).2.choose_spec.2.2.2⟩

/-- C69: given fractions of any basis and any total, the volume fractions add up to one -/
theorem C69_volume_sum {ds fr : List ℝ} {order : ℝ} {s : Discrete} (h : ParticleSizeDistribution ds fr false order = .ok s) : s.fractions.sum = 1 := by
  obtain ⟨f, h1, h2, -, -, -, -, h7, -⟩ := build_inv h
  have hv := cumsum_ne h7
  unfold toVolume at h2
  split_ifs at h2
  · obtain ⟨l, hl, h2⟩ := Py.bind_eq_ok.mp h2
    have hne : l ≠ [] := by rintro rfl; exact hv (Except.ok.inj h2).symm
    exact (normalise_inv h2 hne).2.2
  · rw [← Except.ok.inj h2]; exact inputFractions_normalised h1

/-- C69: given a cumulative distribution in another basis than volume, the volume fractions add up to one -/
theorem C69_cdf_other_basis_sum {ds fr : List ℝ} {cdf : Bool} {order : ℝ} {s : Discrete} (ho : order ≠ 3)
    (h : ParticleSizeDistribution ds fr cdf order = .ok s) : s.fractions.sum = 1 := by
  obtain ⟨f, -, h2, -, -, -, -, h7, -⟩ := build_inv h
  have hv := cumsum_ne h7
  unfold toVolume at h2
  rw [if_pos ho] at h2
  obtain ⟨l, hl, h2⟩ := Py.bind_eq_ok.mp h2
  have hne : l ≠ [] := by rintro rfl; exact hv (Except.ok.inj h2).symm
  exact (normalise_inv h2 hne).2.2

/-- C69: given a cumulative volume distribution over size classes, the object's own cumulative volume distribution is the given one, so the volume
fractions add up to its last value -/
theorem C69_cdf_classes {ds fr : List ℝ} {s : Discrete} (hl : fr.length + 1 = ds.length) (h : ParticleSizeDistribution ds fr true 3 = .ok s) :
    s.volume_cdf = fr ∧ s.fractions.sum = fr.getLastD 0 := by
  obtain ⟨f, h1, h2, -, -, -, -, h7, -⟩ := build_inv h
  rcases fr with _ | ⟨a0, rest⟩
  · simp only [inputFractions, if_true, hl] at h1; cases h1
  · have hf : f = a0 :: Seq.diff1 (a0 :: rest) := by
      simp only [inputFractions, if_true, hl] at h1
      exact (Except.ok.inj h1).symm
    have hv : s.fractions = f := by
      unfold toVolume at h2; rw [if_neg (by simp)] at h2; exact (Except.ok.inj h2).symm
    obtain ⟨dd, e1, e2⟩ := C20_cumsum_diff a0 rest
    have e3 : dd = Seq.diff1 (a0 :: rest) := (Except.ok.inj e1).symm
    rw [hv, hf, ← e3, e2] at h7
    refine ⟨(Except.ok.inj h7).symm, ?_⟩
    rw [hv, hf, List.sum_cons, sum_diff1, List.getLastD_eq_getLast?, List.getLast?_eq_some_getLast (by simp)]; simp

/-- C69 (finding): given a cumulative volume distribution for sizes instead of classes, the first value is dropped: the volume fractions add up
to the last value less the first, not to one -/
theorem C69_cdf_sizes {ds : List ℝ} {a0 : ℝ} {rest : List ℝ} {s : Discrete} (hl : (a0 :: rest).length = ds.length)
    (h : ParticleSizeDistribution ds (a0 :: rest) true 3 = .ok s) : s.fractions.sum = (a0 :: rest).getLast (by simp) - a0 := by
  obtain ⟨f, h1, h2, -⟩ := build_inv h
  have hf : f = 0 :: Seq.diff1 (a0 :: rest) := by
    simp only [inputFractions, if_true] at h1
    rw [if_neg (by omega)] at h1
    exact (Except.ok.inj h1).symm
  have hv : s.fractions = f := by
    unfold toVolume at h2; rw [if_neg (by simp)] at h2; exact (Except.ok.inj h2).symm
  rw [hv, hf, List.sum_cons, sum_diff1, zero_add]

/-- C69: rebuilding a distribution from its own number, length, area or volume fractions gives the same object -/
theorem C69_roundtrip {ds fr : List ℝ} {cdf : Bool} {order : ℝ} {s : Discrete} (hfr : fr ≠ []) (h : ParticleSizeDistribution ds fr cdf order = .ok s)
    (hsum : s.fractions.sum = 1) :
    ParticleSizeDistribution ds s.number_fractions false 0 = .ok s ∧ ParticleSizeDistribution ds s.length_fractions false 1 = .ok s ∧
    ParticleSizeDistribution ds s.area_fractions false 2 = .ok s ∧ ParticleSizeDistribution ds s.fractions false 3 = .ok s := by
  obtain ⟨f, h1, h2, h3, h4, h5, h6, h7, h8, h9, h10, h11, h12, h13⟩ := build_inv h
  have hv := cumsum_ne h7
  have hlen : s.fractions.length = fr.length := by rw [toVolume_length h2, inputFractions_length h1 hfr]
  have hN : s.N = s.fractions.length := by rw [h11, toVolume_length h2]
  have hone : ∀ r : List ℝ, r.sum = 1 → inputFractions ds r false = .ok r := fun r hr => by
    simp [inputFractions, hr]
  have key : ∀ (k : ℝ) (r : List ℝ), k ≠ 3 → fromVolume ds (decide (ds.length = fr.length + 1)) s.fractions (3 - k) = .ok r →
      ParticleSizeDistribution ds r false k = .ok s := by
    intro k r hk hr
    obtain ⟨hd, S, hS, hSe, hre, hrs⟩ := fromVolume_inv hr hv
    have hrl : r.length = fr.length := by rw [hre]; simp [hlen]
    have hrn : r.length = s.N := by rw [hrl, hN, hlen]
    have hto : toVolume ds (decide (ds.length = r.length + 1)) k r = .ok s.fractions := by
      rw [hrl]
      unfold toVolume
      rw [if_pos hk]
      set sc := decide (ds.length = fr.length + 1) with hsc
      have e1 : (r.zipIdx.mapM fun fi => (do
          let p : ℝ ← di_power ds sc fi.2 (3 - k)
          return p * fi.1 : Py ℝ)) = .ok (s.fractions.map fun i => i / S) := by
        have e2 : r.zipIdx.map (fun fi => val (di_power ds sc fi.2 (3 - k)) * fi.1) = s.fractions.map fun i => i / S := by
          apply List.ext_getElem
          · simp [hre]
          · intro i hi1 hi2
            have hi3 : i < s.fractions.length := by simpa using hi2
            have hmem : (s.fractions[i], i) ∈ s.fractions.zipIdx := by
              rw [List.mk_mem_zipIdx_iff_getElem?]; simp [hi3]
            have hd' := (hd _ hmem).2
            simp only [hre, List.getElem_map, List.getElem_zipIdx, Nat.zero_add]
            dsimp only at hd'
            generalize val (di_power ds sc i (3 - k)) = g at *
            field_simp
        rw [← e2]
        refine mapM_ok _ fun x hx => ?_
        obtain ⟨x1, i⟩ := x
        have hi3 : i < s.fractions.length := by
          have := (List.mk_mem_zipIdx_iff_getElem?.mp hx)
          have h' : i < r.length := (List.getElem?_eq_some_iff.mp this).1
          omega
        have hmem : (s.fractions[i], i) ∈ s.fractions.zipIdx := by
          rw [List.mk_mem_zipIdx_iff_getElem?]; simp [hi3]
        have hd' := (hd _ hmem).1
        dsimp only at hd' ⊢
        rw [hd', Py.ok_bind]; rfl
      rw [e1]; simp only [Py.ok_bind]
      have hs1 : (s.fractions.map fun i => i / S).sum = 1 / S := by rw [sum_map_div, hsum]
      have hs2 : (s.fractions.map fun i => i / S).sum ≠ 0 := by rw [hs1]; positivity
      rw [normalise_ok hs2, List.map_map, hs1]
      congr 1
      conv_rhs => rw [← List.map_id s.fractions]
      refine List.map_congr_left fun x _ => ?_
      simp only [Function.comp, id]; field_simp
    refine build_ok (hone r hrs) hto ?_ ?_ ?_ h6 h7 h8 h9 h10 hrn.symm h12 ?_ <;> rw [hrl] <;> assumption
  refine ⟨key 0 _ (by norm_num) (by rw [sub_zero]; exact h3), key 1 _ (by norm_num) (by rw [show (3 : ℝ) - 1 = 2 by norm_num]; exact h4),
    key 2 _ (by norm_num) (by rw [show (3 : ℝ) - 2 = 1 by norm_num]; exact h5), ?_⟩
  refine build_ok (hone _ hsum) ?_ ?_ ?_ ?_ h6 h7 h8 h9 h10 hN h12 ?_ <;> rw [hlen] <;> try assumption
  simp [toVolume]

/-- C69 (finding): the cumulative values 0.1, 1 at the sizes 1 and 2 become the fractions 0 and 0.9 -/
theorem C69_cdf_sizes_example : ∃ s, ParticleSizeDistribution [1, 2] [0.1, 1] true 3 = .ok s ∧ s.fractions = [0, 0.9] := by
  have hp : ∀ (i : ℕ) (p : ℝ), i < 2 → di_power [1, 2] false i p = .ok (((i : ℝ) + 1) ^ p) := by
    intro i p hi
    have : i = 0 ∨ i = 1 := by omega
    rcases this with rfl | rfl
    · have e : Seq.pyGet ([1, 2] : List ℝ) ((0 : ℕ) : ℤ) = .ok 1 := rfl
      simp only [di_power, e, Bool.false_eq_true, if_false, Py.ok_bind]; rw [ppow_ok one_pos]; norm_num
    · have e : Seq.pyGet ([1, 2] : List ℝ) ((1 : ℕ) : ℤ) = .ok 2 := rfl
      simp only [di_power, e, Bool.false_eq_true, if_false, Py.ok_bind]; rw [ppow_ok two_pos]; norm_num
  have hf : ∀ p : ℝ, fromVolume [1, 2] false [0, 0.9] p = .ok [0, 1] := by
    intro p
    have h2 : (2 : ℝ) ^ p > 0 := by positivity
    have e1 : ([(0, 0), (0.9, 1)] : List (ℝ × ℕ)).mapM (fun fi => (do
        let Vp : ℝ ← di_power [1, 2] false fi.2 p
        fi.1 /ₚ Vp : Py ℝ)) = .ok [0, 0.9 / 2 ^ p] := by
      have a0 : (0 : ℝ) /ₚ ((((0 : ℕ) : ℝ) + 1) ^ p) = .ok 0 := by rw [pdiv_ok (by norm_num)]; simp
      have a1 : (0.9 : ℝ) /ₚ ((((1 : ℕ) : ℝ) + 1) ^ p) = .ok (0.9 / 2 ^ p) := by
        rw [show (((1 : ℕ) : ℝ) + 1) = 2 by norm_num, pdiv_ok h2.ne']
      rw [List.mapM_cons, hp 0 p (by norm_num)]; simp only [Py.ok_bind]
      rw [a0]; simp only [Py.ok_bind]
      rw [List.mapM_cons, hp 1 p (by norm_num)]; simp only [Py.ok_bind]
      rw [a1]; rfl
    have hz : ([0, 0.9] : List ℝ).zipIdx = [(0, 0), (0.9, 1)] := rfl
    unfold fromVolume
    rw [hz, e1]; simp only [Py.ok_bind]
    have hsum : ([0, 0.9 / 2 ^ p] : List ℝ).sum ≠ 0 := by simp; norm_num; exact h2.ne'
    rw [normalise_ok hsum]
    simp only [List.map_cons, List.map_nil, List.sum_cons, List.sum_nil, zero_div, zero_add, add_zero]
    rw [div_self (by positivity)]
  have h1 : inputFractions [1, 2] [0.1, 1] true = .ok [0, 0.9] := by
    have e : Seq.diff ([0.1, 1] : List ℝ) 1 = .ok [1 - 0.1] := rfl
    have : (1 : ℝ) - 0.1 = 0.9 := by norm_num
    simp [inputFractions, e, this]
  refine ⟨⟨[1, 2], false, 2, [0, 0.9], [0, 1], [0, 1], [0, 1], [0, 0 + 0.9], [0, 0 + 1], [0, 0 + 1], [0, 0 + 1]⟩, ?_, rfl⟩
  have hdec : decide (([1, 2] : List ℝ).length = ([0.1, 1] : List ℝ).length + 1) = false := by simp
  refine build_ok h1 ?_ ?_ ?_ ?_ ⟨2, rfl⟩ rfl rfl rfl rfl rfl rfl hdec.symm <;> rw [hdec]
  · simp [toVolume]
  · exact hf 3
  · exact hf 2
  · exact hf 1

end Verif.Psd
