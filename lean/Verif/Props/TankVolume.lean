import Verif.Props.HorizTori

/-! C60: volumes of tanks. -/

open Real

noncomputable section

namespace Verif.Geometry

/-- the geometries of a head: non-negative depth; a spherical head of a horizontal tank no deeper than a half sphere (and outside the rounding band of C59);
a torispherical head with `0 < k < 1/2 < f` -/
def HorizHeadOK (D : ℝ) (X : Side) : Prop :=
  X.head = none ∨ (X.head = some "conical" ∧ 0 ≤ X.a) ∨ (X.head = some "ellipsoidal" ∧ 0 ≤ X.a) ∨ (X.head = some "guppy" ∧ 0 ≤ X.a) ∨
  (X.head = some "spherical" ∧ 0 < X.a ∧ (X.a = D / 2 ∨ (X.a < D / 2 ∧ ¬ isclose ((X.a ^ 2 + (D / 2) ^ 2) / (2 * X.a)) (D / 2) 2e-15))) ∨
  (X.head = some "torispherical" ∧ ∃ f k, X.f = some f ∧ X.k = some k ∧ (0 < k ∧ k < 1 / 2) ∧ 1 / 2 < f)

/-- liquid in one head of a horizontal tank, from the functions of C59 -/
def horizHead (D L : ℝ) (X : Side) (h : ℝ) : Py ℝ :=
  if X.head = some "conical" then V_horiz_conical D L X.a h true
  else if X.head = some "ellipsoidal" then V_horiz_ellipsoidal D L X.a h true
  else if X.head = some "guppy" then V_horiz_guppy D L X.a h true
  else if X.head = some "spherical" then V_horiz_spherical D L X.a h true
  else if X.head = some "torispherical" then V_horiz_torispherical D L (X.f.getD 0) (X.k.getD 0) h true
  else .ok 0

theorem horizHead_fill {D L : ℝ} (hD : 0 < D) (hL : 0 ≤ L) {X : Side} (h : HorizHeadOK D X) :
    ∃ W : ℝ → ℝ, (∀ h, horizHead D L X h = .ok (W h)) ∧ W 0 = 0 ∧ Monotone W := by
  unfold horizHead
  rcases h with h | ⟨h, ha⟩ | ⟨h, ha⟩ | ⟨h, ha⟩ | ⟨h, ha, hb⟩ | ⟨h, f, k, hf, hk, hk', hf'⟩
  · refine ⟨fun _ => 0, fun x => ?_, rfl, monotone_const⟩
    simp [h]
  · obtain ⟨W, h1, h2, -, h4, -⟩ := (C59_horiz_conical hD hL ha).1
    exact ⟨W, fun x => by simpa [h] using h1 x, h2 0 le_rfl, h4⟩
  · obtain ⟨W, h1, h2, -, h4, -⟩ := (C59_horiz_ellipsoidal hD hL ha).1
    exact ⟨W, fun x => by simpa [h] using h1 x, h2 0 le_rfl, h4⟩
  · obtain ⟨W, h1, h2, -, h4, -⟩ := (C59_horiz_guppy hD hL ha).1
    exact ⟨W, fun x => by simpa [h] using h1 x, h2 0 le_rfl, h4⟩
  · obtain ⟨W, h1, h2, -, h4, -⟩ := (C59_horiz_spherical hD hL ha hb).1
    exact ⟨W, fun x => by simpa [h] using h1 x, h2 0 le_rfl, h4⟩
  · obtain ⟨W, h1, h2⟩ := (C59_horiz_torispherical_fill hD hL hk' hf').2.2 true
    refine ⟨W, fun x => by simpa [h, hf, hk] using h1 x, ?_, h2⟩
    have := h1 0
    rw [(C59_horiz_torispherical hD hk' hf').1 0 le_rfl] at this
    exact (Except.ok.inj this).symm

theorem addHeads_ok {V vA vB : ℝ} {onA onB same : Bool} {FA FB : Py ℝ} (hA : onA = true → FA = .ok vA) (hB : onB = true → FB = .ok vB)
    (hs : onA = true → onB = true → same = true → vA = vB) :
    addHeads V onA onB same FA FB = .ok (V + (if onA = true then vA else 0) + (if onB = true then vB else 0)) := by
  cases onA <;> cases onB <;> cases same <;> simp_all [addHeads, Py.ok_bind, Py.pure_eq]
  ring

theorem setHeads_ok {VA VB vA vB : ℝ} {onA onB same : Bool} {FA FB : Py ℝ} (hA : onA = true → FA = .ok vA) (hB : onB = true → FB = .ok vB)
    (hs : onA = true → onB = true → same = true → vA = vB) :
    setHeads VA VB onA onB same FA FB = .ok (if onA = true then vA else VA, if onB = true then vB else VB) := by
  cases onA <;> cases onB <;> cases same <;> simp_all [setHeads, Py.ok_bind, Py.pure_eq]

/-- the validation of the heads succeeds, and hands over the torispherical parameters -/
theorem side_ok {D : ℝ} {X : Side} (h : HorizHeadOK D X) : checkSide X.head = .ok () ∧
    ∃ p, sideFK X.head X.f X.k = .ok p ∧ (X.head = some "torispherical" → p = (X.f.getD 0, X.k.getD 0)) := by
  rcases h with h | ⟨h, ha⟩ | ⟨h, ha⟩ | ⟨h, ha⟩ | ⟨h, ha, hb⟩ | ⟨h, f, k, hf, hk, hk', hf'⟩ <;> rw [h] <;> refine ⟨by simp [checkSide, headNames], ?_⟩
  · exact ⟨(0, 0), by simp [sideFK], by simp⟩
  · exact ⟨(0, 0), by simp [sideFK], by simp⟩
  · exact ⟨(0, 0), by simp [sideFK], by simp⟩
  · exact ⟨(0, 0), by simp [sideFK], by simp⟩
  · exact ⟨(0, 0), by simp [sideFK], by simp⟩
  · exact ⟨(f, k), by simp [sideFK, hf, hk], by simp [hf, hk]⟩

theorem horizHead_same {D L : ℝ} {A B : Side} (h : A.head = B.head) (ha : A.head ≠ some "torispherical" → A.a = B.a)
    (ht : A.head = some "torispherical" → A.f = B.f ∧ A.k = B.k) (x : ℝ) : horizHead D L A x = horizHead D L B x := by
  unfold horizHead
  rw [← h]
  by_cases hh : A.head = some "torispherical"
  · rw [(ht hh).1, (ht hh).2]
    simp [hh]
  · rw [ha hh]
    simp [hh]

/-- the sum over all kinds of heads picks exactly the heads which are there -/
theorem horizontal_eq {D L : ℝ} (hD : 0 < D) {A B : Side} {vA vB h : ℝ} {fA kA fB kB : ℝ} (h0 : 0 ≤ h)
    (hA : HorizHeadOK D A) (hB : HorizHeadOK D B) (eA : horizHead D L A (min h D) = .ok vA) (eB : horizHead D L B (min h D) = .ok vB)
    (pA : A.head = some "torispherical" → (fA, kA) = (A.f.getD 0, A.k.getD 0)) (pB : B.head = some "torispherical" → (fB, kB) = (B.f.getD 0, B.k.getD 0)) :
    V_from_h_horizontal h D L A B fA kA fB kB = .ok (vA + vB + L * segArea (D / 2) (min h D)) := by
  have hmin : (if h > D then D else h) = min h D := by
    split_ifs with g
    · exact (min_eq_right g.le).symm
    · exact (min_eq_left (not_lt.mp g)).symm
  have hsame : A.head = B.head → (A.head ≠ some "torispherical" → A.a = B.a) → (A.head = some "torispherical" → A.f = B.f ∧ A.k = B.k) → vA = vB := by
    intro g1 g2 g3
    have := horizHead_same (D := D) (L := L) g1 g2 g3 (min h D)
    rw [eA, eB] at this
    exact Except.ok.inj this
  simp only [V_from_h_horizontal, hmin]
  rw [addHeads_ok (vA := vA) (vB := vB), Py.ok_bind, addHeads_ok (vA := vA) (vB := vB), Py.ok_bind, addHeads_ok (vA := vA) (vB := vB), Py.ok_bind,
    addHeads_ok (vA := vA) (vB := vB), Py.ok_bind, addHeads_ok (vA := vA) (vB := vB), Py.ok_bind, show (0.5 : ℝ) * D = D / 2 by ring,
    segment_ok (by linarith) (le_min h0 hD.le) (by linarith [min_le_right h D]), Py.ok_bind, Py.pure_eq]
  · congr 2
    have z : ∀ {X : Side} {v : ℝ}, HorizHeadOK D X → horizHead D L X (min h D) = .ok v →
        (if X.head = some "conical" then v else 0) + (if X.head = some "ellipsoidal" then v else 0) + (if X.head = some "guppy" then v else 0)
          + (if X.head = some "spherical" then v else 0) + (if X.head = some "torispherical" then v else 0) = v := by
      intro X v hX eX
      rcases hX with h | ⟨h, -⟩ | ⟨h, -⟩ | ⟨h, -⟩ | ⟨h, -⟩ | ⟨h, -⟩
      · have : v = 0 := by simpa [horizHead, h] using eX.symm
        simp [h, this]
      all_goals simp [h]
    have zA := z hA eA
    have zB := z hB eB
    simp only [decide_eq_true_eq]
    linarith
  all_goals simp only [decide_eq_true_eq]
  all_goals first
    | (intro g; simpa [horizHead, g, pA, pB] using eA)
    | (intro g; simpa [horizHead, g, pA, pB] using eB)
    | (intro g; have := pA g; rw [Prod.mk.injEq] at this; rw [this.1, this.2]; simpa [horizHead, g] using eA)
    | (intro g; have := pB g; rw [Prod.mk.injEq] at this; rw [this.1, this.2]; simpa [horizHead, g] using eB)
    | (intro g1 g2 g3; exact hsame (g1.trans g2.symm) (fun _ => g3) (fun c => by rw [g1] at c; simp at c))
    | (intro g1 g2 g3; exact hsame (g1.trans g2.symm) (fun c => absurd g1 c) (fun _ => g3))

/-- the same for `V_tank` -/
theorem tank_horizontal_eq {D L : ℝ} (hD : 0 < D) {A B : Side} {vA vB : ℝ} {fA kA fB kB : ℝ}
    (hA : HorizHeadOK D A) (hB : HorizHeadOK D B) (eA : horizHead D L A D = .ok vA) (eB : horizHead D L B D = .ok vB)
    (pA : A.head = some "torispherical" → (fA, kA) = (A.f.getD 0, A.k.getD 0)) (pB : B.head = some "torispherical" → (fB, kB) = (B.f.getD 0, B.k.getD 0)) :
    V_tank_horizontal D L A B fA kA fB kB = .ok (vA, vB, L * segArea (D / 2) D) := by
  have hsame : A.head = B.head → (A.head ≠ some "torispherical" → A.a = B.a) → (A.head = some "torispherical" → A.f = B.f ∧ A.k = B.k) → vA = vB := by
    intro g1 g2 g3
    have := horizHead_same (D := D) (L := L) g1 g2 g3 D
    rw [eA, eB] at this
    exact Except.ok.inj this
  simp only [V_tank_horizontal]
  rw [setHeads_ok (vA := vA) (vB := vB), Py.ok_bind, setHeads_ok (vA := vA) (vB := vB), Py.ok_bind, setHeads_ok (vA := vA) (vB := vB), Py.ok_bind,
    setHeads_ok (vA := vA) (vB := vB), Py.ok_bind, setHeads_ok (vA := vA) (vB := vB), Py.ok_bind, show (0.5 : ℝ) * D = D / 2 by ring,
    segment_ok (by linarith) hD.le (by linarith), Py.ok_bind, Py.pure_eq]
  · have z : ∀ {X : Side} {v : ℝ}, HorizHeadOK D X → horizHead D L X D = .ok v →
        (if X.head = some "torispherical" then v else if X.head = some "spherical" then v else if X.head = some "guppy" then v
          else if X.head = some "ellipsoidal" then v else if X.head = some "conical" then v else 0) = v := by
      intro X v hX eX
      rcases hX with h | ⟨h, -⟩ | ⟨h, -⟩ | ⟨h, -⟩ | ⟨h, -⟩ | ⟨h, -⟩
      · have : v = 0 := by simpa [horizHead, h] using eX.symm
        simp [h, this]
      all_goals simp [h]
    simp only [decide_eq_true_eq]
    rw [z hA eA, z hB eB]
  all_goals simp only [decide_eq_true_eq]
  all_goals first
    | (intro g; simpa [horizHead, g, pA, pB] using eA)
    | (intro g; simpa [horizHead, g, pA, pB] using eB)
    | (intro g; have := pA g; rw [Prod.mk.injEq] at this; rw [this.1, this.2]; simpa [horizHead, g] using eA)
    | (intro g; have := pB g; rw [Prod.mk.injEq] at this; rw [this.1, this.2]; simpa [horizHead, g] using eB)
    | (intro g1 g2 g3; exact hsame (g1.trans g2.symm) (fun _ => g3) (fun c => by rw [g1] at c; simp at c))
    | (intro g1 g2 g3; exact hsame (g1.trans g2.symm) (fun c => absurd g1 c) (fun _ => g3))

/-- C60: a horizontal tank.  For every level the volume is the liquid in the two heads and in the shell; it is 0 when empty, never decreases, and at the
level `D` it is the total of `V_tank`, which is the sum of its parts. -/
theorem C60_horizontal {D L : ℝ} (hD : 0 < D) (hL : 0 ≤ L) {A B : Side} (hA : HorizHeadOK D A) (hB : HorizHeadOK D B) :
    ∃ V WA WB : ℝ → ℝ, (∀ h, horizHead D L A h = .ok (WA h)) ∧ (∀ h, horizHead D L B h = .ok (WB h)) ∧
      (∀ h ≥ 0, V_from_h h D L true A B = .ok (V h) ∧ V h = WA (min h D) + WB (min h D) + L * segArea (D / 2) (min h D)) ∧
      V 0 = 0 ∧ MonotoneOn V (Set.Ici 0) ∧ V_tank D L true A B = .ok (V D, WA D, WB D, L * (π / 4 * D ^ 2)) := by
  obtain ⟨WA, a1, a2, a3⟩ := horizHead_fill hD hL hA
  obtain ⟨WB, b1, b2, b3⟩ := horizHead_fill hD hL hB
  obtain ⟨cA, pA, kA, tA⟩ := side_ok hA
  obtain ⟨cB, pB, kB, tB⟩ := side_ok hB
  have hR : 0 < D / 2 := by linarith
  refine ⟨fun h => WA (min h D) + WB (min h D) + L * segArea (D / 2) (min h D), WA, WB, a1, b1, fun h hh => ⟨?_, rfl⟩, ?_, ?_, ?_⟩
  · simp only [V_from_h, cA, cB, kA, kB, Py.ok_bind, if_true]
    exact horizontal_eq hD hh hA hB (a1 _) (b1 _) (fun g => by rw [← tA g]) (fun g => by rw [← tB g])
  · beta_reduce
    rw [min_eq_left hD.le, a2, b2, segArea_zero hR]; ring
  · intro s _ t _ hst
    have hm := min_le_min hst (le_refl D)
    have := mul_le_mul_of_nonneg_left (segArea_le_of hR hm) hL
    have h1 := a3 hm
    have h2 := b3 hm
    beta_reduce
    linarith
  · simp only [V_tank, cA, cB, kA, kB, Py.ok_bind, if_true]
    rw [tank_horizontal_eq hD hA hB (a1 _) (b1 _) (fun g => by rw [← tA g]) (fun g => by rw [← tB g]), Py.ok_bind, Py.pure_eq, min_self]
    have : segArea (D / 2) D = π / 4 * D ^ 2 := by
      have := segArea_full hR
      rw [show 2 * (D / 2) = D by ring] at this
      rw [this]; ring
    rw [this]
    congr 2
    ring

/-- a negative level is rejected in a horizontal tank -/
theorem C60_horizontal_negative {D L h : ℝ} (hD : 0 < D) (hL : 0 ≤ L) (hh : h < 0) {A B : Side} (hA : HorizHeadOK D A) (hB : HorizHeadOK D B) :
    V_from_h h D L true A B = .error .valueError := by
  obtain ⟨WA, a1, a2, a3⟩ := horizHead_fill hD hL hA
  obtain ⟨WB, b1, b2, b3⟩ := horizHead_fill hD hL hB
  obtain ⟨cA, pA, kA, tA⟩ := side_ok hA
  obtain ⟨cB, pB, kB, tB⟩ := side_ok hB
  have tA' : A.head = some "torispherical" → pA.1 = A.f.getD 0 ∧ pA.2 = A.k.getD 0 := fun g => by rw [tA g]; exact ⟨rfl, rfl⟩
  have tB' : B.head = some "torispherical" → pB.1 = B.f.getD 0 ∧ pB.2 = B.k.getD 0 := fun g => by rw [tB g]; exact ⟨rfl, rfl⟩
  simp only [V_from_h, cA, cB, kA, kB, Py.ok_bind, if_true]
  have hmin : (if h > D then D else h) = h := if_neg (by linarith)
  have hsame : A.head = B.head → (A.head ≠ some "torispherical" → A.a = B.a) → (A.head = some "torispherical" → A.f = B.f ∧ A.k = B.k) → WA h = WB h := by
    intro g1 g2 g3
    have := horizHead_same (D := D) (L := L) g1 g2 g3 h
    rw [a1, b1] at this
    exact Except.ok.inj this
  have eA := a1 h
  have eB := b1 h
  simp only [V_from_h_horizontal, hmin]
  rw [addHeads_ok (vA := WA h) (vB := WB h), Py.ok_bind, addHeads_ok (vA := WA h) (vB := WB h), Py.ok_bind, addHeads_ok (vA := WA h) (vB := WB h), Py.ok_bind,
    addHeads_ok (vA := WA h) (vB := WB h), Py.ok_bind, addHeads_ok (vA := WA h) (vB := WB h), Py.ok_bind, show (0.5 : ℝ) * D = D / 2 by ring,
    segment_neg (by linarith) hh, Py.error_bind]
  all_goals simp only [decide_eq_true_eq]
  all_goals first
    | (intro g; simpa [horizHead, g] using eA)
    | (intro g; simpa [horizHead, g] using eB)
    | (intro g; rw [(tA' g).1, (tA' g).2]; simpa [horizHead, g] using eA)
    | (intro g; rw [(tB' g).1, (tB' g).2]; simpa [horizHead, g] using eB)
    | (intro g1 g2 g3; exact hsame (g1.trans g2.symm) (fun _ => g3) (fun c => by rw [g1] at c; simp at c))
    | (intro g1 g2 g3; exact hsame (g1.trans g2.symm) (fun c => absurd g1 c) (fun _ => g3))

/-! ### Vertical tanks -/

/-- the geometries of a head of a vertical tank -/
def VertHeadOK (X : Side) : Prop :=
  0 ≤ X.a ∧ (X.head = none ∨ X.head = some "conical" ∨ X.head = some "ellipsoidal" ∨ X.head = some "guppy" ∨ X.head = some "spherical" ∨
    (X.head = some "torispherical" ∧ ∃ f k, X.f = some f ∧ X.k = some k ∧ (0 < k ∧ k < 1 / 2) ∧ 1 / 2 ≤ f))

/-- liquid of height `h` in a head which points down; guppy heads and flat ends hold nothing -/
def vertHead (D : ℝ) (X : Side) (h : ℝ) : Py ℝ :=
  if X.head = some "conical" then V_vertical_conical D X.a h
  else if X.head = some "ellipsoidal" then V_vertical_ellipsoidal D X.a h
  else if X.head = some "spherical" then V_vertical_spherical D X.a h
  else if X.head = some "torispherical" then V_vertical_torispherical D (X.f.getD 0) (X.k.getD 0) h
  else .ok 0

theorem flat_fill {D : ℝ} : ∃ W : ℝ → ℝ, (∀ h, W h = if h ≤ 0 then 0 else 0.25 * π * D * D * h) ∧ (∀ h ≤ 0, W h = 0) ∧ Monotone W := by
  have hp := pi_pos
  have hk : 0 ≤ 0.25 * π * D * D := by nlinarith [mul_self_nonneg D]
  refine ⟨fun h => if h ≤ 0 then 0 else 0.25 * π * D * D * h, fun _ => rfl, fun h hh => if_pos hh, fun s t hst => ?_⟩
  beta_reduce
  split_ifs with h1 h2
  · exact le_rfl
  · exact mul_nonneg hk (not_le.mp h2).le
  · linarith
  · exact mul_le_mul_of_nonneg_left hst hk

theorem vertHead_fill {D : ℝ} (hD : 0 < D) {X : Side} (h : VertHeadOK X) : ∃ W : ℝ → ℝ, (∀ h, vertHead D X h = .ok (W h)) ∧ (∀ h ≤ 0, W h = 0) ∧ Monotone W := by
  obtain ⟨ha, h⟩ := h
  unfold vertHead
  obtain ⟨F, f1, f2, f3⟩ := flat_fill (D := D)
  have pos : ¬ X.a = 0 → 0 < X.a := fun g => lt_of_le_of_ne ha (Ne.symm g)
  rcases h with h | h | h | h | h | ⟨h, f, k, hf, hk, hk', hf'⟩
  · exact ⟨fun _ => 0, fun x => by simp [h], fun _ _ => rfl, monotone_const⟩
  · by_cases g : X.a = 0
    · refine ⟨F, fun x => ?_, f2, f3⟩
      simp only [h, if_true, g, V_vertical_conical, f1]
      split_ifs
      · rfl
      · linarith
      · congr 1; ring
    · obtain ⟨W, h1, h2, -, h4, -⟩ := C59_vertical_conical (D := D) (pos g)
      exact ⟨W, fun x => by simpa [h] using h1 x, h2, h4⟩
  · by_cases g : X.a = 0
    · refine ⟨F, fun x => ?_, f2, f3⟩
      simp only [h, if_true, g, V_vertical_ellipsoidal, f1]
      simp only [String.reduceEq, Option.some.injEq, if_false]
      split_ifs
      · rfl
      · linarith
      · congr 1; ring
    · obtain ⟨W, h1, h2, -, h4, -⟩ := C59_vertical_ellipsoidal (D := D) (pos g)
      exact ⟨W, fun x => by simpa [h] using h1 x, h2, h4⟩
  · exact ⟨fun _ => 0, fun x => by simp [h], fun _ _ => rfl, monotone_const⟩
  · by_cases g : X.a = 0
    · refine ⟨F, fun x => ?_, f2, f3⟩
      simp only [h, if_true, g, V_vertical_spherical, f1]
      simp only [String.reduceEq, Option.some.injEq, if_false]
      split_ifs
      · rfl
      · linarith
      · congr 1; ring
    · obtain ⟨W, h1, h2, -, h4, -⟩ := C59_vertical_spherical hD (pos g)
      exact ⟨W, fun x => by simpa [h] using h1 x, h2, h4⟩
  · obtain ⟨W, h1, h2, -, h4, -⟩ := C59_vertical_torispherical hD hk' hf'
    exact ⟨W, fun x => by simpa [h, hf, hk] using h1 x, h2, h4⟩

theorem vside_ok {X : Side} (h : VertHeadOK X) : checkSide X.head = .ok () ∧
    ∃ p, sideFK X.head X.f X.k = .ok p ∧ (X.head = some "torispherical" → p.1 = X.f.getD 0 ∧ p.2 = X.k.getD 0) := by
  obtain ⟨-, h⟩ := h
  rcases h with h | h | h | h | h | ⟨h, f, k, hf, hk, hk', hf'⟩ <;> rw [h] <;> refine ⟨by simp [checkSide, headNames], ?_⟩
  · exact ⟨(0, 0), by simp [sideFK], by simp⟩
  · exact ⟨(0, 0), by simp [sideFK], by simp⟩
  · exact ⟨(0, 0), by simp [sideFK], by simp⟩
  · exact ⟨(0, 0), by simp [sideFK], by simp⟩
  · exact ⟨(0, 0), by simp [sideFK], by simp⟩
  · exact ⟨(f, k), by simp [sideFK, hf, hk], by simp [hf, hk]⟩

theorem bottomHead_eq {D h : ℝ} {X : Side} {f k : ℝ} (hp : X.head = some "torispherical" → f = X.f.getD 0 ∧ k = X.k.getD 0) :
    bottomHead D h X.head X.a f k = vertHead D X (min X.a h) := by
  unfold bottomHead vertHead
  split_ifs with h1 h2 h3 h4
  · rfl
  · rfl
  · rfl
  · rw [(hp h4).1, (hp h4).2]
  · rfl

theorem topHead_eq {D h2 : ℝ} {X : Side} {f k : ℝ} {W : ℝ → ℝ} (hW : ∀ h, vertHead D X h = .ok (W h)) (h0 : ∀ h ≤ 0, W h = 0) (hm : Monotone W)
    (hp : X.head = some "torispherical" → f = X.f.getD 0 ∧ k = X.k.getD 0) :
    topHead D h2 X.head X.a f k = .ok (W X.a - W h2) := by
  have hn : 0 ≤ W h2 := by
    rcases le_total h2 0 with g | g
    · rw [h0 _ g]
    · rw [← h0 0 le_rfl]; exact hm g
  unfold topHead
  unfold vertHead at hW
  split_ifs with g1 g2 g3 g4
  · simp only [g1, if_true] at hW; simp only [hW, Py.ok_bind, Py.pure_eq]
  · simp only [g2, if_true, String.reduceEq, Option.some.injEq, if_false] at hW; simp only [hW, Py.ok_bind, Py.pure_eq]
  · simp only [g3, if_true, String.reduceEq, Option.some.injEq, if_false] at hW; simp only [hW, Py.ok_bind, Py.pure_eq]
  · simp only [g4, if_true, String.reduceEq, Option.some.injEq, if_false] at hW
    rw [(hp g4).1, (hp g4).2]
    simp only [hW, Py.ok_bind, Py.pure_eq, max_eq_right hn]
  · simp only [g1, g2, g3, g4, if_false] at hW
    rw [← Except.ok.inj (hW X.a), ← Except.ok.inj (hW h2), sub_zero]

theorem vertHead_same {D : ℝ} {A B : Side} (h : A.head = B.head) (ha : A.a = B.a) (ht : A.head = some "torispherical" → A.f = B.f ∧ A.k = B.k) (x : ℝ) :
    vertHead D A x = vertHead D B x := by
  unfold vertHead
  rw [← h, ha]
  by_cases hh : A.head = some "torispherical"
  · rw [(ht hh).1, (ht hh).2]
  · simp [hh]

/-- C60: a vertical tank.  The volume is 0 when empty, never decreases, in the shell it grows by the cross-section, and at the top it is the total of `V_tank`,
which is the sum of the two heads and the shell.  (For two torispherical heads with the same `f`, `k`, `V_tank` uses the depth of the lower one, hence `hs`.) -/
theorem C60_vertical {D L : ℝ} (hD : 0 < D) (hL : 0 ≤ L) {A B : Side} (hA : VertHeadOK A) (hB : VertHeadOK B)
    (hs : A.head = some "torispherical" → B.head = some "torispherical" → A.f = B.f → A.k = B.k → A.a = B.a) :
    ∃ (V : ℝ → ℝ) (vA vB : ℝ), vertHead D A A.a = .ok vA ∧ vertHead D B B.a = .ok vB ∧
      (∀ h, V_from_h h D L false A B = .ok (V h)) ∧ (∀ h ≤ 0, V h = 0) ∧ Monotone V ∧
      (∀ h, A.a ≤ h → h ≤ A.a + L → V h = vA + π / 4 * D ^ 2 * (h - A.a)) ∧
      V_tank D L false A B = .ok (V (L + A.a + B.a), vA, vB, π / 4 * D ^ 2 * L) := by
  obtain ⟨WA, a1, a2, a3⟩ := vertHead_fill hD hA
  obtain ⟨WB, b1, b2, b3⟩ := vertHead_fill hD hB
  obtain ⟨cA, pA, kA, tA⟩ := vside_ok hA
  obtain ⟨cB, pB, kB, tB⟩ := vside_ok hB
  have ha := hA.1
  have hb := hB.1
  have hS : 0 < 0.25 * π * D * D := by have := pi_pos; positivity
  have hV : ∀ h, V_from_h h D L false A B = .ok (WA (min A.a (min h (L + A.a + B.a))) + 0.25 * π * D * D * min L (max 0 (min h (L + A.a + B.a) - A.a))
      + (WB B.a - WB (B.a - max 0 (min h (L + A.a + B.a) - A.a - L)))) := by
    intro h
    have hmin : (if h > L + A.a + B.a then L + A.a + B.a else h) = min h (L + A.a + B.a) := by
      split_ifs with g
      · exact (min_eq_right g.le).symm
      · exact (min_eq_left (not_lt.mp g)).symm
    simp only [V_from_h, cA, cB, kA, kB, Py.ok_bind, Bool.false_eq_true, if_false, V_from_h_vertical, hmin]
    rw [bottomHead_eq tA, a1, Py.ok_bind]
    set h' := min h (L + A.a + B.a) with hh'
    by_cases g1 : h' > A.a + L
    · rw [if_pos g1, if_pos (le_of_lt g1), topHead_eq b1 b2 b3 tB, Py.ok_bind, Py.pure_eq, max_eq_right (by linarith : (0 : ℝ) ≤ h' - A.a),
        min_eq_left (by linarith : L ≤ h' - A.a), max_eq_right (by linarith : (0 : ℝ) ≤ h' - A.a - L)]
    · rw [if_neg g1, Py.pure_eq, max_eq_left (by linarith [not_lt.mp g1] : h' - A.a - L ≤ 0), sub_zero, sub_self, add_zero]
      congr 1
      split_ifs with g2 g3
      · rw [max_eq_right (by linarith : (0 : ℝ) ≤ h' - A.a), min_eq_left (by linarith : L ≤ h' - A.a)]
      · rw [max_eq_right (by linarith : (0 : ℝ) ≤ h' - A.a), min_eq_right (by linarith [not_lt.mp g1] : h' - A.a ≤ L)]
      · rw [max_eq_left (by linarith [not_lt.mp g3] : h' - A.a ≤ 0), min_eq_right hL]; ring
  refine ⟨_, WA A.a, WB B.a, a1 _, b1 _, hV, ?_, ?_, ?_, ?_⟩
  · intro h hh
    beta_reduce
    have h1 : min h (L + A.a + B.a) ≤ 0 := (min_le_left _ _).trans hh
    rw [a2 _ ((min_le_right _ _).trans h1), max_eq_left (by linarith), max_eq_left (by linarith), min_eq_right hL]
    ring_nf
  · intro s t hst
    beta_reduce
    have hm := min_le_min hst (le_refl (L + A.a + B.a))
    have h1 := a3 (min_le_min (le_refl A.a) hm)
    have h2 := mul_le_mul_of_nonneg_left (min_le_min (le_refl L) (max_le_max (le_refl (0 : ℝ)) (sub_le_sub_right hm A.a))) hS.le
    have h3 := b3 (sub_le_sub_left (max_le_max (le_refl (0 : ℝ)) (sub_le_sub_right (sub_le_sub_right hm A.a) L)) B.a)
    linarith
  · intro h h1 h2
    beta_reduce
    rw [min_eq_left (by linarith : h ≤ L + A.a + B.a), min_eq_left h1, max_eq_right (by linarith : (0 : ℝ) ≤ h - A.a), min_eq_right (by linarith : h - A.a ≤ L),
      max_eq_left (by linarith : h - A.a - L ≤ 0)]
    ring_nf
  · have hsame : A.head = B.head → A.a = B.a → (A.head = some "torispherical" → A.f = B.f ∧ A.k = B.k) → WA A.a = WB B.a := by
      intro g1 g2 g3
      have := vertHead_same (D := D) g1 g2 g3 A.a
      rw [a1, b1, g2] at this
      rw [g2]
      exact Except.ok.inj this
    have eA := a1 A.a
    have eB := b1 B.a
    simp only [V_tank, cA, cB, kA, kB, Py.ok_bind, Bool.false_eq_true, if_false, V_tank_vertical]
    rw [setHeads_ok (vA := WA A.a) (vB := WB B.a), Py.ok_bind, setHeads_ok (vA := WA A.a) (vB := WB B.a), Py.ok_bind,
      setHeads_ok (vA := WA A.a) (vB := WB B.a), Py.ok_bind, setHeads_ok (vA := WA A.a) (vB := WB B.a), Py.ok_bind]
    · have z : ∀ {X : Side} {v : ℝ}, VertHeadOK X → vertHead D X X.a = .ok v →
          (if X.head = some "torispherical" then v else if X.head = some "spherical" then v
            else if X.head = some "ellipsoidal" then v else if X.head = some "conical" then v else 0) = v := by
        intro X v hX eX
        rcases hX.2 with h | h | h | h | h | ⟨h, -⟩
        · have : v = 0 := by simpa [vertHead, h] using eX.symm
          simp [h, this]
        · simp [h]
        · simp [h]
        · have : v = 0 := by simpa [vertHead, h] using eX.symm
          simp [h, this]
        all_goals simp [h]
      simp only [decide_eq_true_eq]
      rw [z hA eA, z hB eB]
      simp only [Py.ok_bind, Py.pure_eq]
      rw [min_self, min_eq_left (by linarith : A.a ≤ L + A.a + B.a), max_eq_right (by linarith : (0 : ℝ) ≤ L + A.a + B.a - A.a), min_eq_left (by linarith : L ≤ L + A.a + B.a - A.a),
        max_eq_right (by linarith : (0 : ℝ) ≤ L + A.a + B.a - A.a - L), show B.a - (L + A.a + B.a - A.a - L) = 0 by ring, b2 0 le_rfl]
      congr 2
      · ring
      · congr 2; ring
    all_goals simp only [decide_eq_true_eq]
    all_goals first
      | (intro g; simpa [vertHead, g] using eA)
      | (intro g; simpa [vertHead, g] using eB)
      | (intro g; rw [(tA g).1, (tA g).2]; simpa [vertHead, g] using eA)
      | (intro g; rw [(tB g).1, (tB g).2]; simpa [vertHead, g] using eB)
      | (intro g1 g2 g3; exact hsame (g1.trans g2.symm) g3 (fun c => by rw [g1] at c; simp at c))
      | (intro g1 g2 g3; exact hsame (g1.trans g2.symm) (hs g1 g2 g3.1 g3.2) (fun _ => g3))

/-- C60: an unknown head name on either side, or a torispherical head without its parameters, raises ValueError in both functions -/
theorem C60_rejects (h D L : ℝ) (b : Bool) (A B : Side)
    (hbad : (∃ s, A.head = some s ∧ s ∉ ["conical", "ellipsoidal", "torispherical", "spherical", "guppy"]) ∨
      (∃ s, B.head = some s ∧ s ∉ ["conical", "ellipsoidal", "torispherical", "spherical", "guppy"]) ∨
      (A.head = some "torispherical" ∧ (A.f = none ∨ A.k = none)) ∨ (B.head = some "torispherical" ∧ (B.f = none ∨ B.k = none))) :
    V_from_h h D L b A B = .error .valueError ∧ V_tank D L b A B = .error .valueError := by
  have hc : ∀ X : Option String, checkSide X = .ok () ∨ checkSide X = .error .valueError := by
    intro X
    unfold checkSide
    cases X
    · exact Or.inl rfl
    · simp only; split_ifs
      · exact Or.inl rfl
      · exact Or.inr rfl
  have hs : ∀ X : Side, (∃ p, sideFK X.head X.f X.k = .ok p) ∨ sideFK X.head X.f X.k = .error .valueError := by
    intro X
    unfold sideFK
    split_ifs
    · cases X.f <;> cases X.k <;> simp
    · exact Or.inl ⟨_, rfl⟩
  have bad : ∀ X : Option String, (∃ s, X = some s ∧ s ∉ ["conical", "ellipsoidal", "torispherical", "spherical", "guppy"]) → checkSide X = .error .valueError := by
    rintro X ⟨s, rfl, hs⟩
    exact if_neg hs
  have bad2 : ∀ X : Side, X.head = some "torispherical" ∧ (X.f = none ∨ X.k = none) → sideFK X.head X.f X.k = .error .valueError := by
    rintro X ⟨h1, h2⟩
    unfold sideFK
    rw [if_pos h1]
    rcases h2 with h2 | h2 <;> rw [h2]
    cases X.f <;> rfl
  have main : (checkSide A.head = .error .valueError ∨ checkSide B.head = .error .valueError ∨ sideFK A.head A.f A.k = .error .valueError ∨
      sideFK B.head B.f B.k = .error .valueError) := by
    rcases hbad with g | g | g | g
    · exact Or.inl (bad _ g)
    · exact Or.inr (Or.inl (bad _ g))
    · exact Or.inr (Or.inr (Or.inl (bad2 _ g)))
    · exact Or.inr (Or.inr (Or.inr (bad2 _ g)))
  unfold V_from_h V_tank
  rcases hc A.head with e1 | e1 <;> rw [e1]
  · rcases hc B.head with e2 | e2 <;> rw [e2]
    · rcases hs A with ⟨p, e3⟩ | e3 <;> rw [e3]
      · rcases hs B with ⟨q, e4⟩ | e4 <;> rw [e4]
        · rw [e1, e2, e3, e4] at main; simp at main
        · simp [Py.ok_bind, Py.error_bind]
      · simp [Py.ok_bind, Py.error_bind]
    · simp [Py.ok_bind, Py.error_bind]
  · simp [Py.error_bind]

/-- C60 (finding): a guppy head is accepted on a vertical tank but holds nothing: only its depth shifts the levels -/
theorem C60_vertical_guppy_ignored (h D L : ℝ) (A B : Side) (hA : A.head = some "guppy") :
    V_from_h h D L false A B = V_from_h h D L false { A with head := none } B := by
  simp [V_from_h, V_from_h_vertical, hA, bottomHead, checkSide, headNames, sideFK]

/-- a tank with a conical and a torispherical end meets the hypotheses in both orientations -/
example : HorizHeadOK 2 ⟨some "conical", 0.4, none, none⟩ ∧ HorizHeadOK 2 ⟨some "torispherical", 0, some 1, some 0.06⟩ ∧
    VertHeadOK ⟨some "torispherical", 0.3, some 1, some 0.06⟩ ∧ VertHeadOK ⟨some "spherical", 0.5, none, none⟩ := by
  refine ⟨?_, ?_, ⟨?_, ?_⟩, ⟨?_, ?_⟩⟩
  · exact Or.inr (Or.inl ⟨rfl, by norm_num⟩)
  · exact Or.inr (Or.inr (Or.inr (Or.inr (Or.inr ⟨rfl, 1, 0.06, rfl, rfl, by norm_num, by norm_num⟩))))
  · norm_num
  · exact Or.inr (Or.inr (Or.inr (Or.inr (Or.inr ⟨rfl, 1, 0.06, rfl, rfl, by norm_num, by norm_num⟩))))
  · norm_num
  · exact Or.inr (Or.inr (Or.inr (Or.inr (Or.inl rfl))))

end Verif.Geometry
