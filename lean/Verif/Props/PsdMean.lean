import Verif.Props.PsdDiscrete

/-! C88: mean sizes of discrete distributions. -/

open Real

noncomputable section

namespace Verif.Psd

/-! ### Powers of a size or of a class -/

/-- mean of `x ^ p` over a class -/
def classPower (a b p : ℝ) : ℝ := (b ^ (p + 1) - a ^ (p + 1)) / ((b - a) * (p + 1))

theorem classPower_deriv {x p : ℝ} (hx : 0 < x) (hp : p + 1 ≠ 0) : HasDerivAt (fun x : ℝ => x ^ (p + 1) / (p + 1)) (x ^ p) x := by
  have := (hasDerivAt_rpow_const (x := x) (p := p + 1) (Or.inl hx.ne')).div_const (p + 1)
  refine this.congr_deriv ?_
  rw [add_sub_cancel_right]; field_simp

theorem classPower_between {a b p q A B : ℝ} (ha : 0 < a) (hab : a < b) (hp : p + 1 ≠ 0) (hq : q + 1 ≠ 0)
    (hAB : ∀ x, a ≤ x → x ≤ b → A ≤ x ^ (p - q) ∧ x ^ (p - q) ≤ B) : A * classPower a b q ≤ classPower a b p ∧ classPower a b p ≤ B * classPower a b q := by
  have key : ∀ p : ℝ, p + 1 ≠ 0 → Antiderivative (fun x => .ok (x ^ (p + 1) / (p + 1))) (fun _ => .ok 1) (fun x => x ^ (p + 1) / (p + 1)) (fun _ => 1) p a b := fun p hp =>
    { eval := fun _ _ _ => rfl
      cont := fun x hx => (classPower_deriv (ha.trans_le hx.1) hp).continuousAt.continuousWithinAt
      density := fun _ _ _ => ⟨rfl, one_pos⟩
      deriv := fun x h1 _ => by rw [mul_one]; exact classPower_deriv (ha.trans h1) hp }
  have h := moment_between ha.le hab (key p hp) (key q hq) fun x h1 h2 => hAB x h1.le h2.le
  have e : ∀ p : ℝ, p + 1 ≠ 0 → classPower a b p = (b ^ (p + 1) / (p + 1) - a ^ (p + 1) / (p + 1)) / (b - a) := fun p hp => by
    unfold classPower
    have : b - a ≠ 0 := by linarith
    field_simp
  rw [e p hp, e q hq, ← mul_div_assoc, ← mul_div_assoc]
  have hpos : 0 < b - a := by linarith
  exact ⟨by gcongr; exact h.1, by gcongr; exact h.2⟩

theorem classPower_pos {a b p : ℝ} (ha : 0 < a) (hab : a < b) (hp : p + 1 ≠ 0) : 0 < classPower a b p := by
  have hb : 0 < b := ha.trans hab
  have h1 : classPower a b 0 = 1 := by
    unfold classPower
    have : b - a ≠ 0 := by linarith
    rw [zero_add, rpow_one, rpow_one, mul_one, div_self this]
  have hmin : 0 < min (a ^ p) (b ^ p) := lt_min (by positivity) (by positivity)
  have h := (classPower_between (p := p) (q := 0) (A := min (a ^ p) (b ^ p)) (B := max (a ^ p) (b ^ p)) ha hab hp (by norm_num) (fun x h1 h2 => by
    rw [sub_zero]
    have hx : 0 < x := ha.trans_le h1
    rcases le_total 0 p with h0 | h0
    · exact ⟨(min_le_left _ _).trans (rpow_le_rpow ha.le h1 h0), (rpow_le_rpow hx.le h2 h0).trans (le_max_right _ _)⟩
    · exact ⟨(min_le_right _ _).trans (rpow_le_rpow_of_nonpos hx h2 h0), (rpow_le_rpow_of_nonpos ha h1 h0).trans (le_max_left _ _)⟩)).1
  rw [h1, mul_one] at h
  exact hmin.trans_le h

theorem pyGet_nat {α : Type} (l : List α) (i : ℕ) (h : i < l.length) : Seq.pyGet l (i : ℤ) = .ok l[i] := by
  unfold Seq.pyGet
  have e : ¬ ((i : ℤ) < 0) := by omega
  simp only [e, if_false, Int.toNat_natCast]
  rw [List.getElem?_eq_getElem h]

/-- the power a distribution uses for its `i`-th size or class -/
def sizePower (ds : List ℝ) (sc : Bool) (i : ℕ) (p : ℝ) : ℝ := if sc then classPower (ds.getD i 0) (ds.getD (i + 1) 0) p else (ds.getD i 0) ^ p

/-- hypotheses on the sizes: positive, strictly ascending, between `lo` and `hi`, one more than the fractions when they bound classes -/
structure Sizes (ds : List ℝ) (sc : Bool) (N : ℕ) (lo hi : ℝ) : Prop where
  lo_pos : 0 < lo
  range : ∀ d ∈ ds, lo ≤ d ∧ d ≤ hi
  ascending : ds.Pairwise (· < ·)
  length : ds.length = if sc then N + 1 else N

theorem Sizes.get {ds : List ℝ} {sc : Bool} {N : ℕ} {lo hi : ℝ} (h : Sizes ds sc N lo hi) {i : ℕ} (hi' : i < ds.length) :
    lo ≤ ds.getD i 0 ∧ ds.getD i 0 ≤ hi := by
  rw [List.getD_eq_getElem _ _ hi']; exact h.range _ (List.getElem_mem _)

theorem Sizes.succ {ds : List ℝ} {sc : Bool} {N : ℕ} {lo hi : ℝ} (h : Sizes ds sc N lo hi) {i : ℕ} (hi' : i + 1 < ds.length) :
    ds.getD i 0 < ds.getD (i + 1) 0 := by
  rw [List.getD_eq_getElem _ _ hi', List.getD_eq_getElem _ _ (by omega)]
  exact List.pairwise_iff_getElem.mp h.ascending i (i + 1) (by omega) hi' (by omega)

/-- the exponents the class formula can handle -/
def okPower (sc : Bool) (p : ℝ) : Prop := sc = true → p ≠ -1

theorem di_power_eval {ds : List ℝ} {sc : Bool} {N : ℕ} {lo hi p : ℝ} (h : Sizes ds sc N lo hi) (hp : okPower sc p) {i : ℕ} (hi' : i < N) :
    di_power ds sc i p = .ok (sizePower ds sc i p) ∧ 0 < sizePower ds sc i p := by
  have hl := h.length
  unfold di_power sizePower
  cases sc with
  | false =>
    simp only [Bool.false_eq_true, if_false] at hl ⊢
    have h1 : i < ds.length := by omega
    have h2 := (h.get h1).1
    rw [pyGet_nat ds i h1, ← List.getD_eq_getElem ds 0 h1]
    have : 0 < ds.getD i 0 := h.lo_pos.trans_le h2
    refine ⟨?_, by positivity⟩
    simp only [Py.ok_bind]; rw [ppow_ok this]
  | true =>
    simp only [if_true] at hl ⊢
    have h1 : i < ds.length := by omega
    have h3 : i + 1 < ds.length := by omega
    have ha : 0 < ds.getD i 0 := h.lo_pos.trans_le (h.get h1).1
    have hb : 0 < ds.getD (i + 1) 0 := h.lo_pos.trans_le (h.get h3).1
    have hlt := h.succ h3
    have hp1 : p + 1 ≠ 0 := fun e => hp rfl (by linarith)
    have e2 : Seq.pyGet ds ((i : ℤ) + 1) = .ok (ds.getD (i + 1) 0) := by
      have := pyGet_nat ds (i + 1) h3
      push_cast at this
      rw [this, List.getD_eq_getElem _ _ h3]
    have e1 : Seq.pyGet ds (i : ℤ) = .ok (ds.getD i 0) := by rw [pyGet_nat ds i h1, List.getD_eq_getElem _ _ h1]
    refine ⟨?_, classPower_pos ha hlt hp1⟩
    rw [e1, e2]; simp only [Py.ok_bind]
    rw [ppow_ok ha, ppow_ok hb]; simp only [Py.ok_bind]
    rw [pdiv_ok (mul_ne_zero (by linarith) hp1)]; rfl

theorem sizePower_between {ds : List ℝ} {sc : Bool} {N : ℕ} {lo hi p q A B : ℝ} (h : Sizes ds sc N lo hi) (hp : okPower sc p) (hq : okPower sc q) {i : ℕ} (hi' : i < N)
    (hAB : ∀ x, lo ≤ x → x ≤ hi → A ≤ x ^ (p - q) ∧ x ^ (p - q) ≤ B) :
    A * sizePower ds sc i q ≤ sizePower ds sc i p ∧ sizePower ds sc i p ≤ B * sizePower ds sc i q := by
  have hl := h.length
  unfold sizePower
  cases sc with
  | false =>
    simp only [Bool.false_eq_true, if_false] at hl ⊢
    have h1 : i < ds.length := by omega
    obtain ⟨h2, h3⟩ := h.get h1
    have h4 : 0 < ds.getD i 0 := h.lo_pos.trans_le h2
    have e : (ds.getD i 0) ^ p = (ds.getD i 0) ^ (p - q) * (ds.getD i 0) ^ q := by rw [← rpow_add h4]; congr 1; ring
    obtain ⟨h5, h6⟩ := hAB _ h2 h3
    rw [e]
    exact ⟨by gcongr, by gcongr⟩
  | true =>
    simp only [if_true] at hl ⊢
    have h1 : i < ds.length := by omega
    have h3 : i + 1 < ds.length := by omega
    have ha : 0 < ds.getD i 0 := h.lo_pos.trans_le (h.get h1).1
    exact classPower_between ha (h.succ h3) (fun e => hp rfl (by linarith)) (fun e => hq rfl (by linarith))
      fun x h4 h5 => hAB x ((h.get h1).1.trans h4) (h5.trans (h.get h3).2)

/-! ### Moments -/

theorem foldlM_sum {f : ℕ → Py ℝ} {g : ℕ → ℝ} (l : List ℕ) (acc : ℝ) (h : ∀ i ∈ l, f i = .ok (g i)) :
    l.foldlM (fun (acc : ℝ) (i : ℕ) => (f i >>= fun v => pure (acc + v) : Py ℝ)) acc = .ok (acc + (l.map g).sum) := by
  induction l generalizing acc with
  | nil => simp
  | cons a l ih =>
    rw [List.foldlM_cons, h a (by simp)]
    simp only [Py.ok_bind]
    rw [Py.pure_eq, Py.ok_bind, ih _ fun i hi => h i (by simp [hi])]
    simp [add_assoc]

/-- what a construction from nonnegative fractions provides: as many number fractions as fractions, none negative, adding up to one -/
structure Weights (s : Discrete) : Prop where
  length : s.number_fractions.length = s.N
  nonneg : ∀ f ∈ s.number_fractions, 0 ≤ f
  sum : s.number_fractions.sum = 1

theorem list_eq_range (l : List ℝ) : (List.range l.length).map (fun i => l.getD i 0) = l := by
  apply List.ext_getElem
  · simp
  · intro i h1 h2; simp [h2]

theorem Weights.mean {s : Discrete} (h : Weights s) : ((List.range s.N).map fun i => s.number_fractions.getD i 0).sum = 1 := by
  rw [← h.length, list_eq_range]; exact h.sum

theorem Weights.get {s : Discrete} (h : Weights s) (i : ℕ) : 0 ≤ s.number_fractions.getD i 0 := by
  rcases lt_or_ge i s.number_fractions.length with hi | hi
  · rw [List.getD_eq_getElem _ _ hi]; exact h.nonneg _ (List.getElem_mem _)
  · rw [List.getD_eq_default _ _ hi]

/-- the moment as a sum -/
def momentSum (s : Discrete) (p : ℝ) : ℝ := ((List.range s.N).map fun i => sizePower s.ds s.size_classes i p * s.number_fractions.getD i 0).sum

theorem moment_eval {s : Discrete} {lo hi p : ℝ} (hS : Sizes s.ds s.size_classes s.N lo hi) (hW : Weights s) (hp : okPower s.size_classes p) :
    s.moment p = .ok (momentSum s p) := by
  have h := foldlM_sum (f := fun i => (do
      let d : ℝ ← di_power s.ds s.size_classes i p
      let f : ℝ ← Seq.pyGet s.number_fractions (i : ℤ)
      return d * f : Py ℝ)) (g := fun i => sizePower s.ds s.size_classes i p * s.number_fractions.getD i 0) (List.range s.N) 0 (fun i hi' => by
    have hi'' : i < s.N := List.mem_range.mp hi'
    have h2 : i < s.number_fractions.length := by rw [hW.length]; exact hi''
    rw [(di_power_eval hS hp hi'').1, pyGet_nat _ i h2, List.getD_eq_getElem _ _ h2]; rfl)
  rw [zero_add] at h
  rw [momentSum, ← h]
  unfold Discrete.moment
  congr 1
  funext acc i
  cases di_power s.ds s.size_classes i p with
  | error e => rfl
  | ok d => cases Seq.pyGet s.number_fractions (i : ℤ) <;> rfl

theorem momentSum_pos {s : Discrete} {lo hi p : ℝ} (hS : Sizes s.ds s.size_classes s.N lo hi) (hW : Weights s) (hp : okPower s.size_classes p) : 0 < momentSum s p := by
  by_contra hneg
  have hz : ∀ x ∈ (List.range s.N).map fun i => sizePower s.ds s.size_classes i p * s.number_fractions.getD i 0, 0 ≤ x := by
    intro x hx
    obtain ⟨i, hi', rfl⟩ := List.mem_map.mp hx
    exact mul_nonneg (di_power_eval hS hp (List.mem_range.mp hi')).2.le (hW.get i)
  have h0 : momentSum s p = 0 := le_antisymm (not_lt.mp hneg) (List.sum_nonneg hz)
  have hall : ∀ i ∈ List.range s.N, s.number_fractions.getD i 0 = 0 := by
    intro i hi'
    have := (List.all_zero_of_le_zero_le_of_sum_eq_zero (l := (List.range s.N).map fun i => sizePower s.ds s.size_classes i p * s.number_fractions.getD i 0) hz h0)
      (List.mem_map.mpr ⟨i, hi', rfl⟩)
    exact (mul_eq_zero.mp this).resolve_left (di_power_eval hS hp (List.mem_range.mp hi')).2.ne'
  have := hW.mean
  rw [List.map_congr_left hall] at this
  simp at this

theorem sum_map_le {l : List ℕ} {f g : ℕ → ℝ} (h : ∀ i ∈ l, f i ≤ g i) : (l.map f).sum ≤ (l.map g).sum := List.sum_le_sum h

theorem momentSum_between {s : Discrete} {lo hi p q A B : ℝ} (hS : Sizes s.ds s.size_classes s.N lo hi) (hW : Weights s) (hp : okPower s.size_classes p)
    (hq : okPower s.size_classes q) (hAB : ∀ x, lo ≤ x → x ≤ hi → A ≤ x ^ (p - q) ∧ x ^ (p - q) ≤ B) :
    A * momentSum s q ≤ momentSum s p ∧ momentSum s p ≤ B * momentSum s q := by
  have e : ∀ c : ℝ, c * momentSum s q = ((List.range s.N).map fun i => c * sizePower s.ds s.size_classes i q * s.number_fractions.getD i 0).sum := fun c => by
    unfold momentSum; rw [← List.sum_map_mul_left]; simp only [mul_assoc]
  constructor
  · rw [e A]
    refine sum_map_le fun i hi' => ?_
    have := (sizePower_between hS hp hq (List.mem_range.mp hi') hAB).1
    have := hW.get i
    gcongr
  · rw [e B]
    refine sum_map_le fun i hi' => ?_
    have := (sizePower_between hS hp hq (List.mem_range.mp hi') hAB).2
    have := hW.get i
    gcongr

/-- C88: a mean size of a discrete distribution lies between its smallest and its largest size, for any two different exponents (other than -1 with
size classes), and exchanging the exponents does not change it -/
theorem mean_size_between {s : Discrete} {lo hi p q : ℝ} (hlt : lo ≤ hi) (hS : Sizes s.ds s.size_classes s.N lo hi) (hW : Weights s) (hpq : p ≠ q)
    (hp : okPower s.size_classes p) (hq : okPower s.size_classes q) :
    ∃ v, s.mean_size p q = .ok v ∧ s.mean_size q p = .ok v ∧ lo ≤ v ∧ v ≤ hi := by
  have hMp := momentSum_pos hS hW hp
  have hMq := momentSum_pos hS hW hq
  have hlo := hS.lo_pos
  have hhi : 0 < hi := hlo.trans_le hlt
  have hr : p - q ≠ 0 := sub_ne_zero.mpr hpq
  have ev : ∀ p q : ℝ, p ≠ q → okPower s.size_classes p → okPower s.size_classes q → s.mean_size p q = .ok ((momentSum s p / momentSum s q) ^ (1 / (p - q))) := by
    intro p q hpq hp hq
    have h1 := momentSum_pos hS hW hp
    have h2 := momentSum_pos hS hW hq
    unfold Discrete.mean_size
    rw [if_pos hpq, moment_eval hS hW hp, moment_eval hS hW hq]; simp only [Py.ok_bind]
    rw [pdiv_ok h2.ne', pdiv_ok (sub_ne_zero.mpr hpq)]; simp only [Py.ok_bind]
    rw [ppow_ok (by positivity)]
  have back : ∀ x : ℝ, 0 < x → (x ^ (p - q)) ^ (1 / (p - q)) = x := fun x hx => by
    rw [← rpow_mul hx.le, mul_one_div, div_self hr, rpow_one]
  refine ⟨_, ev p q hpq hp hq, ?_, ?_⟩
  · rw [ev q p hpq.symm hq hp]
    congr 1
    rw [show 1 / (q - p) = -(1 / (p - q)) by rw [← neg_sub p q, one_div, one_div, inv_neg], rpow_neg (by positivity), ← inv_rpow (by positivity), inv_div]
  · rcases lt_or_gt_of_ne hr with hneg | hpos
    · obtain ⟨b1, b2⟩ := momentSum_between (A := hi ^ (p - q)) (B := lo ^ (p - q)) hS hW hp hq (fun x h1 h2 =>
        ⟨rpow_le_rpow_of_nonpos (hlo.trans_le h1) h2 hneg.le, rpow_le_rpow_of_nonpos hlo h1 hneg.le⟩)
      rw [← le_div_iff₀ hMq] at b1; rw [← div_le_iff₀ hMq] at b2
      have hn' : 1 / (p - q) ≤ 0 := (one_div_neg.mpr hneg).le
      constructor
      · calc lo = (lo ^ (p - q)) ^ (1 / (p - q)) := (back lo hlo).symm
          _ ≤ _ := rpow_le_rpow_of_nonpos (by positivity) b2 hn'
      · calc _ ≤ (hi ^ (p - q)) ^ (1 / (p - q)) := rpow_le_rpow_of_nonpos (by positivity) b1 hn'
          _ = _ := back _ hhi
    · obtain ⟨b1, b2⟩ := momentSum_between (A := lo ^ (p - q)) (B := hi ^ (p - q)) hS hW hp hq (fun x h1 h2 =>
        ⟨rpow_le_rpow hlo.le h1 hpos.le, rpow_le_rpow (hlo.trans_le h1).le h2 hpos.le⟩)
      rw [← le_div_iff₀ hMq] at b1; rw [← div_le_iff₀ hMq] at b2
      have hn' : 0 ≤ 1 / (p - q) := (one_div_pos.mpr hpos).le
      constructor
      · calc lo = (lo ^ (p - q)) ^ (1 / (p - q)) := (back lo hlo).symm
          _ ≤ _ := rpow_le_rpow (by positivity) b1 hn'
      · calc _ ≤ (hi ^ (p - q)) ^ (1 / (p - q)) := rpow_le_rpow (by positivity) b2 hn'
          _ = _ := back _ hhi

/-! ### From the constructor -/

/-- sizes and fractions a caller can give: positive strictly ascending sizes between `lo` and `hi`, nonnegative fractions not all zero, as many as
sizes or one fewer -/
structure Input (ds fr : List ℝ) (lo hi : ℝ) : Prop where
  lo_pos : 0 < lo
  range : ∀ d ∈ ds, lo ≤ d ∧ d ≤ hi
  ascending : ds.Pairwise (· < ·)
  length : ds.length = fr.length ∨ ds.length = fr.length + 1
  nonneg : ∀ f ∈ fr, 0 ≤ f
  positive : 0 < fr.sum

theorem Input.sizes {ds fr : List ℝ} {lo hi : ℝ} (h : Input ds fr lo hi) : Sizes ds (decide (ds.length = fr.length + 1)) fr.length lo hi where
  lo_pos := h.lo_pos
  range := h.range
  ascending := h.ascending
  length := by
    by_cases e : ds.length = fr.length + 1
    · simp [e]
    · rw [decide_eq_false e]; simpa using h.length.resolve_right e

theorem okPower_of {sc : Bool} {p : ℝ} (h : p ≠ -1) : okPower sc p := fun _ => h

theorem zipIdx_lt {l : List ℝ} {x : ℝ × ℕ} (h : x ∈ l.zipIdx) : x.2 < l.length ∧ x.1 ∈ l := by
  obtain ⟨a, i⟩ := x
  obtain ⟨h1, h2⟩ := List.getElem?_eq_some_iff.mp (List.mk_mem_zipIdx_iff_getElem?.mp h)
  exact ⟨h1, h2 ▸ List.getElem_mem _⟩

theorem sum_zipIdx_pos {l : List ℝ} {c : ℕ → ℝ} (hl : ∀ x ∈ l, 0 ≤ x) (hs : 0 < l.sum) (hc : ∀ i < l.length, 0 < c i) :
    0 < (l.zipIdx.map fun x => x.1 * c x.2).sum := by
  have hz : ∀ y ∈ l.zipIdx.map fun x => x.1 * c x.2, 0 ≤ y := by
    intro y hy
    obtain ⟨x, hx, rfl⟩ := List.mem_map.mp hy
    exact mul_nonneg (hl _ (zipIdx_lt hx).2) (hc _ (zipIdx_lt hx).1).le
  refine lt_of_le_of_ne (List.sum_nonneg hz) fun h0 => ?_
  have hall : ∀ x ∈ l, x = 0 := by
    intro x hx
    obtain ⟨i, hi, rfl⟩ := List.getElem_of_mem hx
    have hm : (l[i], i) ∈ l.zipIdx := by rw [List.mk_mem_zipIdx_iff_getElem?]; simp [hi]
    have := (List.all_zero_of_le_zero_le_of_sum_eq_zero hz h0.symm) (List.mem_map.mpr ⟨_, hm, rfl⟩)
    exact (mul_eq_zero.mp this).resolve_right (hc i hi).ne'
  have : l.sum = 0 := List.sum_eq_zero hall
  linarith

/-- conversion from the volume basis succeeds on nonnegative fractions -/
theorem fromVolume_ok {ds v : List ℝ} {sc : Bool} {lo hi p : ℝ} (hS : Sizes ds sc v.length lo hi) (hv : ∀ x ∈ v, 0 ≤ x) (hs : 0 < v.sum) (hp : okPower sc p) :
    ∃ r, fromVolume ds sc v p = .ok r ∧ r.length = v.length ∧ (∀ x ∈ r, 0 ≤ x) ∧ r.sum = 1 := by
  have e1 : (v.zipIdx.mapM fun fi => (do
      let Vp : ℝ ← di_power ds sc fi.2 p
      fi.1 /ₚ Vp : Py ℝ)) = .ok (v.zipIdx.map fun x => x.1 * (sizePower ds sc x.2 p)⁻¹) := by
    refine mapM_ok _ fun x hx => ?_
    obtain ⟨h1, h2⟩ := di_power_eval hS hp (zipIdx_lt hx).1
    rw [h1, Py.ok_bind]; exact (pdiv_ok h2.ne').trans (by rw [div_eq_mul_inv])
  have hpos := sum_zipIdx_pos (c := fun i => (sizePower ds sc i p)⁻¹) hv hs fun i hi => inv_pos.mpr (di_power_eval hS hp hi).2
  refine ⟨(v.zipIdx.map fun x => x.1 * (sizePower ds sc x.2 p)⁻¹).map fun i => i / (v.zipIdx.map fun x => x.1 * (sizePower ds sc x.2 p)⁻¹).sum, ?_, ?_, ?_, ?_⟩
  · unfold fromVolume; rw [e1]; simp only [Py.ok_bind]; exact normalise_ok hpos.ne'
  · simp
  · intro y hy
    obtain ⟨z, hz, rfl⟩ := List.mem_map.mp hy
    obtain ⟨x, hx, rfl⟩ := List.mem_map.mp hz
    exact div_nonneg (mul_nonneg (hv _ (zipIdx_lt hx).2) (inv_pos.mpr (di_power_eval hS hp (zipIdx_lt hx).1).2).le) hpos.le
  · rw [sum_map_div, div_self hpos.ne']

/-- conversion to the volume basis succeeds on nonnegative fractions -/
theorem toVolume_ok {ds f : List ℝ} {sc : Bool} {lo hi order : ℝ} (hS : Sizes ds sc f.length lo hi) (hf : ∀ x ∈ f, 0 ≤ x) (hs : 0 < f.sum)
    (hp : okPower sc (3 - order)) : ∃ r, toVolume ds sc order f = .ok r ∧ r.length = f.length ∧ (∀ x ∈ r, 0 ≤ x) ∧ 0 < r.sum := by
  unfold toVolume
  split_ifs
  · have e1 : (f.zipIdx.mapM fun fi => (do
        let p : ℝ ← di_power ds sc fi.2 (3 - order)
        return p * fi.1 : Py ℝ)) = .ok (f.zipIdx.map fun x => x.1 * sizePower ds sc x.2 (3 - order)) := by
      refine mapM_ok _ fun x hx => ?_
      rw [(di_power_eval hS hp (zipIdx_lt hx).1).1, Py.ok_bind, mul_comm]; rfl
    have hpos := sum_zipIdx_pos (c := fun i => sizePower ds sc i (3 - order)) hf hs fun i hi => (di_power_eval hS hp hi).2
    rw [e1]; simp only [Py.ok_bind]
    refine ⟨_, normalise_ok hpos.ne', by simp, ?_, ?_⟩
    · intro y hy
      obtain ⟨z, hz, rfl⟩ := List.mem_map.mp hy
      obtain ⟨x, hx, rfl⟩ := List.mem_map.mp hz
      exact div_nonneg (mul_nonneg (hf _ (zipIdx_lt hx).2) (di_power_eval hS hp (zipIdx_lt hx).1).2.le) hpos.le
    · rw [sum_map_div, div_self hpos.ne']; exact one_pos
  · exact ⟨f, rfl, rfl, hf, hs⟩

theorem inputFractions_ok {ds fr : List ℝ} (hn : ∀ f ∈ fr, 0 ≤ f) (hs : 0 < fr.sum) :
    ∃ f, inputFractions ds fr false = .ok f ∧ f.length = fr.length ∧ (∀ x ∈ f, 0 ≤ x) ∧ 0 < f.sum := by
  have key : ∃ f, inputFractions ds fr false = .ok f ∧ f.length = fr.length ∧ (∀ x ∈ f, 0 ≤ x) := by
    simp only [inputFractions, Bool.false_eq_true, if_false]
    split_ifs
    · rw [pdiv_ok hs.ne']
      refine ⟨_, rfl, by simp, ?_⟩
      intro x hx
      obtain ⟨y, hy, rfl⟩ := List.mem_map.mp hx
      have := hn y hy
      split_ifs
      · positivity
      · exact le_rfl
    · exact ⟨fr, rfl, rfl, hn⟩
  obtain ⟨f, h1, h2, h3⟩ := key
  exact ⟨f, h1, h2, h3, by rw [inputFractions_normalised h1]; exact one_pos⟩

/-- C69, C88: from such input the constructor succeeds; every family of fractions has one entry for each one given, none negative -/
theorem C88_constructor {ds fr : List ℝ} {order lo hi : ℝ} (h : Input ds fr lo hi) (ho : ds.length = fr.length + 1 → order ≠ 4) :
    ∃ s, ParticleSizeDistribution ds fr false order = .ok s ∧ s.ds = ds ∧ s.size_classes = decide (ds.length = fr.length + 1) ∧ s.N = fr.length ∧
      (∀ l, l = s.fractions ∨ l = s.number_fractions ∨ l = s.length_fractions ∨ l = s.area_fractions →
        l.length = fr.length ∧ (∀ x ∈ l, 0 ≤ x) ∧ l.sum = 1) := by
  have hS := h.sizes
  obtain ⟨f, f1, f2, f3, f4⟩ := inputFractions_ok (ds := ds) h.nonneg h.positive
  set sc := decide (ds.length = fr.length + 1) with hsc
  have ho' : okPower sc (3 - order) := fun e he => ho (by simpa [hsc] using e) (by linarith)
  obtain ⟨v, v1, v2, v3, v4⟩ := toVolume_ok (order := order) (by rw [f2]; exact hS) f3 f4 ho'
  have hSv : Sizes ds sc v.length lo hi := by rw [v2, f2]; exact hS
  obtain ⟨a, a1, a2, a3, a4⟩ := fromVolume_ok (p := 3) hSv v3 v4 (okPower_of (by norm_num))
  obtain ⟨b, b1, b2, b3, b4⟩ := fromVolume_ok (p := 2) hSv v3 v4 (okPower_of (by norm_num))
  obtain ⟨c, c1, c2, c3, c4⟩ := fromVolume_ok (p := 1) hSv v3 v4 (okPower_of (by norm_num))
  have hfr : 0 < fr.length := by
    rcases fr with _ | ⟨x, l⟩
    · have := h.positive; simp at this
    · simp
  have hdl : 0 < ds.length := by rcases h.length with e | e <;> omega
  have hne : ∀ l : List ℝ, l.length = fr.length → ∃ r, Seq.cumsum l = .ok r := fun l hl =>
    ⟨_, (C20_cumsum l).2 (by intro e; rw [e] at hl; simp at hl; omega)⟩
  obtain ⟨w1, g1⟩ := hne v (by omega)
  obtain ⟨w2, g2⟩ := hne c (by omega)
  obtain ⟨w3, g3⟩ := hne b (by omega)
  obtain ⟨w4, g4⟩ := hne a (by omega)
  have hlast : ∃ x, Seq.pyGet ds (-1) = .ok x := by
    unfold Seq.pyGet
    have e1 : ¬ ((-1 : ℤ) + ds.length < 0) := by omega
    have e2 : ((-1 : ℤ) + ds.length).toNat < ds.length := by omega
    simp only [show (-1 : ℤ) < 0 from by norm_num, if_true, e1, if_false]
    rw [List.getElem?_eq_getElem e2]; exact ⟨_, rfl⟩
  have hbuild : ParticleSizeDistribution ds fr false order = .ok ⟨ds, sc, f.length, v, a, b, c, w1, w2, w3, w4⟩ :=
    build_ok f1 v1 a1 b1 c1 hlast g1 g2 g3 g4 rfl rfl rfl
  have hvs : v.sum = 1 := C69_volume_sum hbuild
  refine ⟨_, hbuild, rfl, rfl, f2, ?_⟩
  rintro l (rfl | rfl | rfl | rfl)
  · exact ⟨by omega, v3, hvs⟩
  · exact ⟨by omega, a3, a4⟩
  · exact ⟨by omega, b3, b4⟩
  · exact ⟨by omega, c3, c4⟩

/-- C88: every mean size D[p, q] of a discrete distribution lies between its smallest and its largest size, and exchanging the exponents does not
change it; with size classes the exponent -1 is excluded -/
theorem C88_mean_size {ds fr : List ℝ} {order lo hi p q : ℝ} (h : Input ds fr lo hi) (ho : ds.length = fr.length + 1 → order ≠ 4 ∧ p ≠ -1 ∧ q ≠ -1) (hpq : p ≠ q) :
    ∃ s v, ParticleSizeDistribution ds fr false order = .ok s ∧ s.mean_size p q = .ok v ∧ s.mean_size q p = .ok v ∧ lo ≤ v ∧ v ≤ hi := by
  obtain ⟨s, h1, h2, h3, h4, h5⟩ := C88_constructor h fun e => (ho e).1
  have hS : Sizes s.ds s.size_classes s.N lo hi := by rw [h2, h3, h4]; exact h.sizes
  obtain ⟨w1, w2, w3⟩ := h5 s.number_fractions (by simp)
  have hok : ∀ x : ℝ, (ds.length = fr.length + 1 → x ≠ -1) → okPower s.size_classes x := fun x hx e => hx (by rw [h3] at e; simpa using e)
  have hlt : lo ≤ hi := by
    rcases ds with _ | ⟨d, l⟩
    · have := h.positive
      rcases h.length with e | e
      · rcases fr with _ | ⟨x, l⟩
        · simp at this
        · simp at e
      · simp at e
    · exact (h.range d (by simp)).1.trans (h.range d (by simp)).2
  obtain ⟨v, e1, e2, e3, e4⟩ := mean_size_between hlt hS ⟨by rw [w1, h4], w2, w3⟩ hpq (hok p fun e => (ho e).2.1) (hok q fun e => (ho e).2.2)
  exact ⟨s, v, h1, e1, e2, e3, e4⟩

/-! ### Equal exponents and the specific surface -/

theorem sizePower_zero {ds : List ℝ} {sc : Bool} {N : ℕ} {lo hi : ℝ} (h : Sizes ds sc N lo hi) {i : ℕ} (hi' : i < N) : sizePower ds sc i 0 = 1 := by
  have hl := h.length
  unfold sizePower classPower
  cases sc with
  | false => simp
  | true =>
    simp only [if_true] at hl ⊢
    have := h.succ (i := i) (by omega)
    rw [zero_add, rpow_one, rpow_one, mul_one, div_self (by linarith)]

theorem sizePower_one {ds : List ℝ} {sc : Bool} {N : ℕ} {lo hi : ℝ} (h : Sizes ds sc N lo hi) {i : ℕ} (hi' : i < N) :
    lo ≤ sizePower ds sc i 1 ∧ sizePower ds sc i 1 ≤ hi := by
  have := sizePower_between (p := 1) (q := 0) (A := lo) (B := hi) h (okPower_of (by norm_num)) (okPower_of (by norm_num)) hi' (fun x h1 h2 => by
    rw [sub_zero, rpow_one]; exact ⟨h1, h2⟩)
  rwa [sizePower_zero h hi', mul_one, mul_one] at this

/-- the moment with a logarithm as a sum -/
def logMomentSum (s : Discrete) (p : ℝ) : ℝ :=
  ((List.range s.N).map fun i => log (sizePower s.ds s.size_classes i 1) * sizePower s.ds s.size_classes i p * s.number_fractions.getD i 0).sum

theorem logMoment_eval {s : Discrete} {lo hi p : ℝ} (hS : Sizes s.ds s.size_classes s.N lo hi) (hW : Weights s) (hp : okPower s.size_classes p) :
    s.logMoment p = .ok (logMomentSum s p) := by
  have h := foldlM_sum (f := fun i => (do
      let a : ℝ ← di_power s.ds s.size_classes i 1
      let l : ℝ ← plog a
      let d : ℝ ← di_power s.ds s.size_classes i p
      let f : ℝ ← Seq.pyGet s.number_fractions (i : ℤ)
      return l * d * f : Py ℝ)) (g := fun i => log (sizePower s.ds s.size_classes i 1) * sizePower s.ds s.size_classes i p * s.number_fractions.getD i 0)
        (List.range s.N) 0 (fun i hi' => by
    have hi'' : i < s.N := List.mem_range.mp hi'
    have h2 : i < s.number_fractions.length := by rw [hW.length]; exact hi''
    have h1 := di_power_eval (p := 1) hS (okPower_of (by norm_num)) hi''
    rw [h1.1, Py.ok_bind, plog_ok h1.2, Py.ok_bind, (di_power_eval hS hp hi'').1, pyGet_nat _ i h2, List.getD_eq_getElem _ _ h2]; rfl)
  rw [zero_add] at h
  rw [logMomentSum, ← h]
  unfold Discrete.logMoment
  congr 1
  funext acc i
  cases di_power s.ds s.size_classes i 1 with
  | error e => rfl
  | ok a =>
    simp only [Py.ok_bind]
    cases plog a with
    | error e => rfl
    | ok l =>
      simp only [Py.ok_bind]
      cases di_power s.ds s.size_classes i p with
      | error e => rfl
      | ok d => cases Seq.pyGet s.number_fractions (i : ℤ) <;> rfl

/-- C88: the mean size D[p, p] too lies between the smallest and the largest size -/
theorem C88_mean_size_equal {ds fr : List ℝ} {order lo hi p : ℝ} (h : Input ds fr lo hi) (ho : ds.length = fr.length + 1 → order ≠ 4 ∧ p ≠ -1) :
    ∃ s v, ParticleSizeDistribution ds fr false order = .ok s ∧ s.mean_size p p = .ok v ∧ lo ≤ v ∧ v ≤ hi := by
  obtain ⟨s, h1, h2, h3, h4, h5⟩ := C88_constructor h fun e => (ho e).1
  have hS : Sizes s.ds s.size_classes s.N lo hi := by rw [h2, h3, h4]; exact h.sizes
  obtain ⟨w1, w2, w3⟩ := h5 s.number_fractions (by simp)
  have hW : Weights s := ⟨by rw [w1, h4], w2, w3⟩
  have hp : okPower s.size_classes p := fun e => (ho (by rw [h3] at e; simpa using e)).2
  have hM := momentSum_pos hS hW hp
  have hlo := h.lo_pos
  have hev : s.mean_size p p = .ok (exp (logMomentSum s p / momentSum s p)) := by
    unfold Discrete.mean_size
    rw [if_neg (by simp), logMoment_eval hS hW hp, moment_eval hS hW hp]; simp only [Py.ok_bind]
    rw [pdiv_ok hM.ne']; rfl
  have e : ∀ c : ℝ, c * momentSum s p = ((List.range s.N).map fun i => c * sizePower s.ds s.size_classes i p * s.number_fractions.getD i 0).sum := fun c => by
    unfold momentSum; rw [← List.sum_map_mul_left]; simp only [mul_assoc]
  have hb1 : log lo * momentSum s p ≤ logMomentSum s p := by
    rw [e]
    refine sum_map_le fun i hi' => ?_
    have hi'' := List.mem_range.mp hi'
    have a1 := (sizePower_one hS hi'').1
    have a2 := (di_power_eval hS hp hi'').2
    have a3 := hW.get i
    gcongr
  have hhi : 0 < hi := by
    have : 0 < s.N := by
      rw [h4]
      rcases fr with _ | ⟨x, l⟩
      · have := h.positive; simp at this
      · simp
    exact hlo.trans_le ((sizePower_one hS this).1.trans (sizePower_one hS this).2)
  have hb2 : logMomentSum s p ≤ log hi * momentSum s p := by
    rw [e]
    refine sum_map_le fun i hi' => ?_
    have hi'' := List.mem_range.mp hi'
    have a1 := (sizePower_one hS hi'').2
    have a0 := (sizePower_one hS hi'').1
    have a2 := (di_power_eval hS hp hi'').2
    have a3 := hW.get i
    have : 0 < sizePower s.ds s.size_classes i 1 := hlo.trans_le a0
    gcongr
  refine ⟨s, _, h1, hev, ?_, ?_⟩
  · rw [← log_le_iff_le_exp hlo, le_div_iff₀ hM]; exact hb1
  · rw [← le_log_iff_exp_le hhi, div_le_iff₀ hM]; exact hb2

theorem vssa_eval {ds fr : List ℝ} {order lo hi : ℝ} (h : Input ds fr lo hi) (ho : ds.length = fr.length + 1 → order ≠ 4) :
    ∃ s, ParticleSizeDistribution ds fr false order = .ok s ∧
      s.vssa = .ok ((List.range s.N).map fun i => s.fractions.getD i 0 * (6 / sizePower s.ds s.size_classes i 1)).sum ∧
      6 / hi ≤ ((List.range s.N).map fun i => s.fractions.getD i 0 * (6 / sizePower s.ds s.size_classes i 1)).sum ∧
      ((List.range s.N).map fun i => s.fractions.getD i 0 * (6 / sizePower s.ds s.size_classes i 1)).sum ≤ 6 / lo := by
  obtain ⟨s, h1, h2, h3, h4, h5⟩ := C88_constructor h ho
  have hS : Sizes s.ds s.size_classes s.N lo hi := by rw [h2, h3, h4]; exact h.sizes
  obtain ⟨w1, w2, w3⟩ := h5 s.fractions (by simp)
  have hlo := h.lo_pos
  have e1 : ((List.range s.N).mapM fun i => di_power s.ds s.size_classes i 1) = .ok ((List.range s.N).map fun i => sizePower s.ds s.size_classes i 1) :=
    mapM_ok _ fun i hi' => (di_power_eval hS (okPower_of (by norm_num)) (List.mem_range.mp hi')).1
  have e2 : (((List.range s.N).map fun i => sizePower s.ds s.size_classes i 1).mapM fun di => (do
      let V : ℝ := π / 6 * di ^ 3
      let SA : ℝ := π * di ^ 2
      SA /ₚ V : Py ℝ)) = .ok (((List.range s.N).map fun i => sizePower s.ds s.size_classes i 1).map fun d => 6 / d) := by
    refine mapM_ok _ fun d hd => ?_
    obtain ⟨i, hi', rfl⟩ := List.mem_map.mp hd
    have := (di_power_eval (p := 1) hS (okPower_of (by norm_num)) (List.mem_range.mp hi')).2
    have hp := pi_pos
    dsimp only
    rw [pdiv_ok (by positivity)]; congr 1; field_simp
  have e3 : (s.fractions.zip (((List.range s.N).map fun i => sizePower s.ds s.size_classes i 1).map fun d => 6 / d)).map (fun fs => fs.1 * fs.2) =
      (List.range s.N).map fun i => s.fractions.getD i 0 * (6 / sizePower s.ds s.size_classes i 1) := by
    apply List.ext_getElem
    · simp [w1, h4]
    · intro i i1 i2
      have i3 : i < s.fractions.length := by rw [w1, ← h4]; simpa using i2
      simp [i3]
  have e4 : ((List.range s.N).map fun i => s.fractions.getD i 0).sum = 1 := by
    rw [h4, ← w1, list_eq_range]; exact w3
  have e5 : ∀ c : ℝ, c = ((List.range s.N).map fun i => s.fractions.getD i 0 * c).sum := fun c => by
    rw [List.sum_map_mul_right, e4, one_mul]
  have hnn : ∀ i ∈ List.range s.N, 0 ≤ s.fractions.getD i 0 := fun i hi' => by
    have i3 : i < s.fractions.length := by rw [w1, ← h4]; exact List.mem_range.mp hi'
    rw [List.getD_eq_getElem _ _ i3]; exact w2 _ (List.getElem_mem _)
  refine ⟨s, h1, ?_, ?_, ?_⟩
  · unfold Discrete.vssa
    rw [e1]; simp only [Py.ok_bind]
    rw [e2]; simp only [Py.ok_bind]
    rw [e3]; rfl
  · conv_lhs => rw [e5 (6 / hi)]
    refine sum_map_le fun i hi' => ?_
    have a := sizePower_one hS (List.mem_range.mp hi')
    have : 0 < sizePower s.ds s.size_classes i 1 := hlo.trans_le a.1
    have := hnn i hi'
    gcongr; exact a.2
  · conv_rhs => rw [e5 (6 / lo)]
    refine sum_map_le fun i hi' => ?_
    have a := sizePower_one hS (List.mem_range.mp hi')
    have := hnn i hi'
    gcongr; exact a.1

/-- C88: the specific surface of a discrete distribution lies between those of its largest and its smallest size -/
theorem C88_vssa {ds fr : List ℝ} {order lo hi : ℝ} (h : Input ds fr lo hi) (ho : ds.length = fr.length + 1 → order ≠ 4) :
    ∃ s v, ParticleSizeDistribution ds fr false order = .ok s ∧ s.vssa = .ok v ∧ 6 / hi ≤ v ∧ v ≤ 6 / lo := by
  obtain ⟨s, h1, h2, h3, h4⟩ := vssa_eval h ho
  exact ⟨s, _, h1, h2, h3, h4⟩

/-- C88: for sizes (not classes) the specific surface is six over the Sauter mean D[3, 2] -/
theorem C88_vssa_Sauter {ds fr : List ℝ} {order lo hi : ℝ} (h : Input ds fr lo hi) (hl : ds.length = fr.length) :
    ∃ s D, ParticleSizeDistribution ds fr false order = .ok s ∧ s.mean_size 3 2 = .ok D ∧ s.vssa = .ok (6 / D) := by
  obtain ⟨s, h1, hv, hv1, hv2⟩ := vssa_eval (order := order) h fun e => absurd e (by omega)
  obtain ⟨s', h1', h2, h3, h4, h5⟩ := C88_constructor (order := order) h fun e => absurd e (by omega)
  obtain rfl := Except.ok.inj (h1.symm.trans h1')
  have hS : Sizes s.ds s.size_classes s.N lo hi := by rw [h2, h3, h4]; exact h.sizes
  have hsc : s.size_classes = false := by rw [h3]; simp [hl]
  obtain ⟨w1, w2, w3⟩ := h5 s.number_fractions (by simp)
  obtain ⟨u1, u2, u3⟩ := h5 s.fractions (by simp)
  have hW : Weights s := ⟨by rw [w1, h4], w2, w3⟩
  obtain ⟨f, -, -, b3, -, -, -, b7, -⟩ := build_inv h1
  rw [← h3] at b3
  obtain ⟨hd, S, hS0, -, hn, -⟩ := fromVolume_inv b3 (cumsum_ne b7)
  have hM3 := momentSum_pos (p := 3) hS hW (okPower_of (by norm_num))
  have hM2 := momentSum_pos (p := 2) hS hW (okPower_of (by norm_num))
  have hget : ∀ i < s.N, s.number_fractions.getD i 0 = s.fractions.getD i 0 / sizePower s.ds s.size_classes i 3 / S := by
    intro i hi'
    have i1 : i < s.number_fractions.length := by rw [w1, ← h4]; exact hi'
    have i2 : i < s.fractions.length := by rw [u1, ← h4]; exact hi'
    have hp := (di_power_eval (p := 3) hS (okPower_of (by norm_num)) hi').1
    rw [h2] at hp
    rw [List.getD_eq_getElem _ _ i1, List.getD_eq_getElem _ _ i2, h2]
    have hval : val (di_power ds s.size_classes i 3) = sizePower ds s.size_classes i 3 := by rw [hp]; rfl
    simp only [hn, List.getElem_map, List.getElem_zipIdx, Nat.zero_add, hval]
  have hsz : ∀ i < s.N, ∃ d, 0 < d ∧ sizePower s.ds s.size_classes i 3 = d ^ 3 ∧ sizePower s.ds s.size_classes i 2 = d ^ 2 ∧ sizePower s.ds s.size_classes i 1 = d := by
    intro i hi'
    have i1 : i < s.ds.length := by rw [h2, hl, ← h4]; exact hi'
    refine ⟨s.ds.getD i 0, hS.lo_pos.trans_le (hS.get i1).1, ?_, ?_, ?_⟩ <;> simp only [sizePower, hsc, Bool.false_eq_true, if_false]
    · exact_mod_cast rpow_natCast (s.ds.getD i 0) 3
    · exact_mod_cast rpow_natCast (s.ds.getD i 0) 2
    · exact rpow_one _
  have e3 : momentSum s 3 = 1 / S := by
    have : momentSum s 3 = ((List.range s.N).map fun i => s.fractions.getD i 0 * (1 / S)).sum := by
      unfold momentSum
      congr 1
      refine List.map_congr_left fun i hi' => ?_
      obtain ⟨d, hd0, hd3, -⟩ := hsz i (List.mem_range.mp hi')
      rw [hget i (List.mem_range.mp hi'), hd3]; field_simp
    rw [this, List.sum_map_mul_right, h4, ← u1, list_eq_range, u3, one_mul]
  have e2 : 6 * momentSum s 2 = ((List.range s.N).map fun i => s.fractions.getD i 0 * (6 / sizePower s.ds s.size_classes i 1)).sum * (1 / S) := by
    unfold momentSum
    rw [← List.sum_map_mul_left, ← List.sum_map_mul_right]
    congr 1
    refine List.map_congr_left fun i hi' => ?_
    obtain ⟨d, hd0, hd3, hd2, hd1⟩ := hsz i (List.mem_range.mp hi')
    rw [hget i (List.mem_range.mp hi'), hd3, hd2, hd1]; field_simp
  refine ⟨s, momentSum s 3 / momentSum s 2, h1, ?_, ?_⟩
  · unfold Discrete.mean_size
    rw [if_pos (by norm_num), moment_eval hS hW (okPower_of (by norm_num)), moment_eval hS hW (okPower_of (by norm_num))]; simp only [Py.ok_bind]
    rw [pdiv_ok hM2.ne', pdiv_ok (by norm_num)]; simp only [Py.ok_bind]
    rw [ppow_ok (by positivity)]; norm_num
  · rw [hv]; congr 1
    rw [e3] at hM3 ⊢
    generalize ((List.range s.N).map fun i => s.fractions.getD i 0 * (6 / sizePower s.ds s.size_classes i 1)).sum = X at *
    generalize momentSum s 2 = Y at *
    field_simp at e2 ⊢
    linarith

/-- C88 (finding): with size classes the two differ: one class from 1 to 3 has the specific surface 3, but six over its Sauter mean is 2.6 -/
theorem C88_vssa_classes : ∃ s, ParticleSizeDistribution [1, 3] [1] false 3 = .ok s ∧ s.mean_size 3 2 = .ok (30 / 13) ∧ s.vssa = .ok 3 := by
  have hin : Input [1, 3] [1] 1 3 := ⟨one_pos, by simp, by norm_num, Or.inr rfl, by simp, by norm_num⟩
  obtain ⟨s, h1, hv, -⟩ := vssa_eval (order := 3) hin fun _ => by norm_num
  obtain ⟨s', h1', h2, h3, h4, h5⟩ := C88_constructor (order := 3) hin fun _ => by norm_num
  obtain rfl := Except.ok.inj (h1.symm.trans h1')
  have hS : Sizes s.ds s.size_classes s.N 1 3 := by rw [h2, h3, h4]; exact hin.sizes
  have hsc : s.size_classes = true := by rw [h3]; simp
  have hN : s.N = 1 := by rw [h4]; rfl
  have one : ∀ l : List ℝ, l.length = 1 → l.sum = 1 → l = [1] := fun l hl hs => by
    obtain ⟨a, rfl⟩ := List.length_eq_one_iff.mp hl
    simp at hs; rw [hs]
  obtain ⟨w1, w2, w3⟩ := h5 s.number_fractions (by simp)
  obtain ⟨u1, u2, u3⟩ := h5 s.fractions (by simp)
  have hW : Weights s := ⟨by rw [w1, h4], w2, w3⟩
  have en := one _ w1 w3
  have ef := one _ u1 u3
  have hc : ∀ p : ℝ, sizePower s.ds s.size_classes 0 p = (3 ^ (p + 1) - 1) / (2 * (p + 1)) := fun p => by
    simp only [sizePower, classPower, hsc, if_true, h2, List.getD_cons_zero, List.getD_cons_succ, zero_add, one_rpow]; norm_num
  have hm : ∀ p : ℝ, momentSum s p = (3 ^ (p + 1) - 1) / (2 * (p + 1)) := fun p => by
    simp [momentSum, hN, en, hc]
  refine ⟨s, h1, ?_, ?_⟩
  · unfold Discrete.mean_size
    rw [if_pos (by norm_num), moment_eval hS hW (okPower_of (by norm_num)), moment_eval hS hW (okPower_of (by norm_num)), hm, hm]; simp only [Py.ok_bind]
    have a3 : (3 : ℝ) ^ ((3 : ℝ) + 1) = 81 := by rw [show (3 : ℝ) + 1 = (4 : ℕ) by norm_num, rpow_natCast]; norm_num
    have a2 : (3 : ℝ) ^ ((2 : ℝ) + 1) = 27 := by rw [show (2 : ℝ) + 1 = (3 : ℕ) by norm_num, rpow_natCast]; norm_num
    rw [a3, a2, pdiv_ok (by norm_num), pdiv_ok (by norm_num)]; simp only [Py.ok_bind]
    rw [ppow_ok (by norm_num)]; norm_num
  · rw [hv, hN, ef]
    have a1 : (3 : ℝ) ^ ((1 : ℝ) + 1) = 9 := by rw [show (1 : ℝ) + 1 = (2 : ℕ) by norm_num, rpow_natCast]; norm_num
    simp [hc, a1]; norm_num

/-- C88: with size classes the exponent -1 is a ZeroDivisionError -/
theorem C88_mean_size_minus_one {s : Discrete} {lo hi q : ℝ} (hS : Sizes s.ds s.size_classes s.N lo hi) (hc : s.size_classes = true) (hN : 0 < s.N) (hq : q ≠ -1) :
    s.mean_size (-1) q = .error .zeroDivisionError := by
  have hl := hS.length
  rw [hc, if_pos rfl] at hl
  have e1 := pyGet_nat s.ds 0 (by omega)
  have e2 := pyGet_nat s.ds 1 (by omega)
  have h0 : (0 : ℝ) < s.ds[0]'(by omega) := hS.lo_pos.trans_le (hS.range _ (List.getElem_mem _)).1
  have h1 : (0 : ℝ) < s.ds[1]'(by omega) := hS.lo_pos.trans_le (hS.range _ (List.getElem_mem _)).1
  have hd : di_power s.ds s.size_classes 0 (-1) = .error .zeroDivisionError := by
    rw [hc]
    unfold di_power
    simp only [if_true]
    push_cast at e1 e2
    push_cast
    rw [e1, e2]; simp only [Py.ok_bind]
    rw [ppow_ok h0, ppow_ok h1]; simp only [Py.ok_bind]
    rw [neg_add_cancel, mul_zero, pdiv_zero]
  have hm : s.moment (-1) = .error .zeroDivisionError := by
    unfold Discrete.moment
    obtain ⟨n, hn⟩ : ∃ n, s.N = n + 1 := ⟨s.N - 1, by omega⟩
    rw [hn, List.range_succ_eq_map, List.foldlM_cons, hd]; rfl
  unfold Discrete.mean_size
  rw [if_pos hq.symm, hm]; rfl

example : ∃ s v, ParticleSizeDistribution [1, 2, 4] [1 / 4, 3 / 4] false 3 = .ok s ∧ s.mean_size 3 2 = .ok v ∧ s.mean_size 2 3 = .ok v ∧ 1 ≤ v ∧ v ≤ 4 :=
  C88_mean_size ⟨one_pos, by simp; norm_num, by norm_num, Or.inr rfl, by simp; norm_num, by norm_num⟩ (fun _ => by norm_num) (by norm_num)

end Verif.Psd
