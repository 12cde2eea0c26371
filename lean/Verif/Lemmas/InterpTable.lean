import Verif.Props.Interp

/-! # Consequences of C21 for tables: `interp` is total, stays within the ordinates, and is monotone when the ordinates are -/

namespace Verif
open Verif.Seq (interp)

variable {K : Type _} [Field K] [LinearOrder K] [IsStrictOrderedRing K] {dx dy : List K}

theorem bracket_index (hs : dx.Pairwise (· < ·)) (hn : 2 ≤ dx.length) {x : K} (h0 : dx.getD 0 0 ≤ x) (h1 : x ≤ dx.getD (dx.length - 1) 0) :
    ∃ i, i + 1 < dx.length ∧ dx.getD i 0 ≤ x ∧ x ≤ dx.getD (i + 1) 0 := by
  have key : ∀ n, n < dx.length → x ≤ dx.getD n 0 → ∃ i, i + 1 < dx.length ∧ dx.getD i 0 ≤ x ∧ x ≤ dx.getD (i + 1) 0 := by
    intro n
    induction n with
    | zero =>
      intro _ hx
      refine ⟨0, by omega, h0, hx.trans (incr_getD hs (by omega : 0 < 1) (by omega)).le⟩
    | succ n ih =>
      intro hn' hx
      by_cases hh : x ≤ dx.getD n 0
      · exact ih (by omega) hh
      · exact ⟨n, hn', (not_le.mp hh).le, hx⟩
  exact key (dx.length - 1) (by omega) h1

/-- any table with increasing abscissae can be interpolated anywhere -/
theorem interp_total (x : K) (hs : dx.Pairwise (· < ·)) (hl : dx.length = dy.length) (hn : 2 ≤ dx.length) (l r : Option K)
    (ex : Bool) : ∃ y, interp x dx dy l r ex = .ok y := by
  by_cases h0 : x < dx.getD 0 0
  · exact ⟨_, (C21_interp_outside x dx dy hs hl hn l r ex).1 h0⟩
  by_cases h1 : dx.getD (dx.length - 1) 0 < x
  · exact ⟨_, (C21_interp_outside x dx dy hs hl hn l r ex).2 h1⟩
  obtain ⟨i, hi, ha, hb⟩ := bracket_index hs hn (not_lt.mp h0) (not_lt.mp h1)
  exact ⟨_, C21_interp_inside x dx dy hs hl l r ex i hi ha hb⟩

theorem getD_mem' {l : List K} {i : ℕ} (h : i < l.length) : l.getD i 0 ∈ l := by
  rw [List.getD_eq_getElem _ _ h]; exact List.getElem_mem h

/-- without extrapolation the result stays within the ordinates -/
theorem interp_bounds (x : K) (hs : dx.Pairwise (· < ·)) (hl : dx.length = dy.length) (hn : 2 ≤ dx.length) {lo hi : K}
    (hb : ∀ y ∈ dy, lo ≤ y ∧ y ≤ hi) {y : K} (h : interp x dx dy none none false = .ok y) : lo ≤ y ∧ y ≤ hi := by
  have hm : ∀ i, i < dx.length → lo ≤ dy.getD i 0 ∧ dy.getD i 0 ≤ hi := fun i hi' => hb _ (getD_mem' (hl ▸ hi'))
  by_cases h0 : x < dx.getD 0 0
  · rw [(C21_interp_outside x dx dy hs hl hn none none false).1 h0] at h
    rw [← Except.ok.inj h]
    exact hm 0 (by omega)
  by_cases h1 : dx.getD (dx.length - 1) 0 < x
  · rw [(C21_interp_outside x dx dy hs hl hn none none false).2 h1] at h
    rw [← Except.ok.inj h]
    exact hm _ (by omega)
  obtain ⟨i, hi', ha, hb'⟩ := bracket_index hs hn (not_lt.mp h0) (not_lt.mp h1)
  obtain ⟨z, hz, l1, l2⟩ := C21_interp_between x dx dy hs hl none none false i hi' ha hb'
  rw [hz] at h
  obtain rfl := Except.ok.inj h
  exact ⟨(le_min (hm i (by omega)).1 (hm (i + 1) hi').1).trans l1, l2.trans (max_le (hm i (by omega)).2 (hm (i + 1) hi').2)⟩

theorem decr_getD {l : List K} (hs : l.Pairwise (· ≥ ·)) {i j : ℕ} (hij : i ≤ j) (hj : j < l.length) : l.getD j 0 ≤ l.getD i 0 := by
  rcases hij.lt_or_eq with h | rfl
  · rw [List.getD_eq_getElem _ _ hj, List.getD_eq_getElem _ _ (h.trans hj)]
    exact List.pairwise_iff_getElem.mp hs i j (h.trans hj) hj h
  · exact le_rfl

/-- a table with non-increasing ordinates interpolates to a non-increasing function -/
theorem interp_antitone (hs : dx.Pairwise (· < ·)) (hd : dy.Pairwise (· ≥ ·)) (hl : dx.length = dy.length) (hn : 2 ≤ dx.length) {x x' y y' : K}
    (hx : x ≤ x') (h : interp x dx dy none none false = .ok y) (h' : interp x' dx dy none none false = .ok y') : y' ≤ y := by
  have bd : ∀ v ∈ dy, dy.getD (dx.length - 1) 0 ≤ v ∧ v ≤ dy.getD 0 0 := by
    intro v hv
    obtain ⟨i, hi, rfl⟩ := List.mem_iff_getElem.mp hv
    rw [← List.getD_eq_getElem _ 0 hi]
    exact ⟨decr_getD hd (by omega) (by omega), decr_getD hd (by omega) (by omega)⟩
  by_cases h0 : x < dx.getD 0 0
  · rw [(C21_interp_outside x dx dy hs hl hn none none false).1 h0] at h
    rw [← Except.ok.inj h]
    exact (interp_bounds x' hs hl hn bd h').2
  by_cases h1 : dx.getD (dx.length - 1) 0 < x'
  · rw [(C21_interp_outside x' dx dy hs hl hn none none false).2 h1] at h'
    rw [← Except.ok.inj h']
    exact (interp_bounds x hs hl hn bd h).1
  obtain ⟨i, hi, a1, a2⟩ := bracket_index hs hn (not_lt.mp h0) (hx.trans (not_lt.mp h1))
  obtain ⟨j, hj, b1, b2⟩ := bracket_index hs hn ((not_lt.mp h0).trans hx) (not_lt.mp h1)
  have step : ∀ k, k + 1 < dx.length → 0 < dx.getD (k + 1) 0 - dx.getD k 0 := fun k hk => sub_pos.mpr (incr_getD hs (Nat.lt_succ_self k) hk)
  rcases lt_trichotomy i j with hij | rfl | hij
  · obtain ⟨z, hz, l1, l2⟩ := C21_interp_between x dx dy hs hl none none false i hi a1 a2
    obtain ⟨z', hz', l1', l2'⟩ := C21_interp_between x' dx dy hs hl none none false j hj b1 b2
    rw [hz] at h; rw [hz'] at h'
    obtain rfl := Except.ok.inj h
    obtain rfl := Except.ok.inj h'
    rw [min_eq_right (decr_getD hd (by omega) (by omega))] at l1
    rw [max_eq_left (decr_getD hd (by omega) (by omega))] at l2'
    exact l2'.trans ((decr_getD hd (by omega) (by omega)).trans l1)
  · rw [C21_interp_inside x dx dy hs hl none none false i hi a1 a2] at h
    rw [C21_interp_inside x' dx dy hs hl none none false i hi b1 b2] at h'
    rw [← Except.ok.inj h, ← Except.ok.inj h']
    have hp := step i hi
    have hd' := decr_getD hd (Nat.le_succ i) (by omega : i + 1 < dy.length)
    have : (x - dx.getD i 0) / (dx.getD (i + 1) 0 - dx.getD i 0) ≤ (x' - dx.getD i 0) / (dx.getD (i + 1) 0 - dx.getD i 0) := by
      gcongr
    nlinarith
  · have e : dx.getD (j + 1) 0 ≤ dx.getD i 0 := by
      rcases (by omega : j + 1 ≤ i).lt_or_eq with q | q
      · exact (incr_getD hs q (by omega)).le
      · rw [q]
    have hxx : x = x' := le_antisymm hx (b2.trans (e.trans a1))
    subst hxx
    rw [h] at h'
    exact (Except.ok.inj h').ge

theorem incr_getD' {l : List K} (hs : l.Pairwise (· ≤ ·)) {i j : ℕ} (hij : i ≤ j) (hj : j < l.length) : l.getD i 0 ≤ l.getD j 0 := by
  rcases hij.lt_or_eq with h | rfl
  · rw [List.getD_eq_getElem _ _ hj, List.getD_eq_getElem _ _ (h.trans hj)]
    exact List.pairwise_iff_getElem.mp hs i j (h.trans hj) hj h
  · exact le_rfl

/-- a table with non-decreasing ordinates interpolates to a non-decreasing function -/
theorem interp_monotone (hs : dx.Pairwise (· < ·)) (hd : dy.Pairwise (· ≤ ·)) (hl : dx.length = dy.length) (hn : 2 ≤ dx.length) {x x' y y' : K}
    (hx : x ≤ x') (h : interp x dx dy none none false = .ok y) (h' : interp x' dx dy none none false = .ok y') : y ≤ y' := by
  have bd : ∀ v ∈ dy, dy.getD 0 0 ≤ v ∧ v ≤ dy.getD (dx.length - 1) 0 := by
    intro v hv
    obtain ⟨i, hi, rfl⟩ := List.mem_iff_getElem.mp hv
    rw [← List.getD_eq_getElem _ 0 hi]
    exact ⟨incr_getD' hd (by omega) (by omega), incr_getD' hd (by omega) (by omega)⟩
  by_cases h0 : x < dx.getD 0 0
  · rw [(C21_interp_outside x dx dy hs hl hn none none false).1 h0] at h
    rw [← Except.ok.inj h]
    exact (interp_bounds x' hs hl hn bd h').1
  by_cases h1 : dx.getD (dx.length - 1) 0 < x'
  · rw [(C21_interp_outside x' dx dy hs hl hn none none false).2 h1] at h'
    rw [← Except.ok.inj h']
    exact (interp_bounds x hs hl hn bd h).2
  obtain ⟨i, hi, a1, a2⟩ := bracket_index hs hn (not_lt.mp h0) (hx.trans (not_lt.mp h1))
  obtain ⟨j, hj, b1, b2⟩ := bracket_index hs hn ((not_lt.mp h0).trans hx) (not_lt.mp h1)
  have step : ∀ k, k + 1 < dx.length → 0 < dx.getD (k + 1) 0 - dx.getD k 0 := fun k hk => sub_pos.mpr (incr_getD hs (Nat.lt_succ_self k) hk)
  rcases lt_trichotomy i j with hij | rfl | hij
  · obtain ⟨z, hz, l1, l2⟩ := C21_interp_between x dx dy hs hl none none false i hi a1 a2
    obtain ⟨z', hz', l1', l2'⟩ := C21_interp_between x' dx dy hs hl none none false j hj b1 b2
    rw [hz] at h; rw [hz'] at h'
    obtain rfl := Except.ok.inj h
    obtain rfl := Except.ok.inj h'
    rw [max_eq_right (incr_getD' hd (by omega) (by omega))] at l2
    rw [min_eq_left (incr_getD' hd (by omega) (by omega))] at l1'
    exact l2.trans ((incr_getD' hd (by omega) (by omega)).trans l1')
  · rw [C21_interp_inside x dx dy hs hl none none false i hi a1 a2] at h
    rw [C21_interp_inside x' dx dy hs hl none none false i hi b1 b2] at h'
    rw [← Except.ok.inj h, ← Except.ok.inj h']
    have hp := step i hi
    have hd' := incr_getD' hd (Nat.le_succ i) (by omega : i + 1 < dy.length)
    have : (x - dx.getD i 0) / (dx.getD (i + 1) 0 - dx.getD i 0) ≤ (x' - dx.getD i 0) / (dx.getD (i + 1) 0 - dx.getD i 0) := by
      gcongr
    nlinarith
  · have e : dx.getD (j + 1) 0 ≤ dx.getD i 0 := by
      rcases (by omega : j + 1 ≤ i).lt_or_eq with q | q
      · exact (incr_getD hs q (by omega)).le
      · rw [q]
    have hxx : x = x' := le_antisymm hx (b2.trans (e.trans a1))
    subst hxx
    rw [h] at h'
    exact (Except.ok.inj h').le

end Verif
