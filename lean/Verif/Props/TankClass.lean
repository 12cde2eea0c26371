import Verif.Model.TankClass
import Verif.Props.TankVolume
import Verif.Props.FiniteDiff
import Mathlib.Tactic

/-! C113: the class `TANK` (`fluids/geometry.py`). -/

namespace Verif.TankClass
open Verif Verif.Geometry Real

lemma setRatio_ok {D : ℝ} (hD : D ≠ 0) (a ratio : Option ℝ) : setRatio D a ratio = .ok (match a with | some a => some (a / D) | none => ratio) := by
  cases a with
  | none => rfl
  | some a =>
    cases ratio with
    | none => simp only [setRatio]; rw [pdiv_ok hD]; rfl
    | some r =>
      simp only [setRatio]
      by_cases h : a = D * r
      · rw [if_neg (not_not.2 h), h, mul_div_cancel_left₀ _ hD]
      · rw [if_pos h, pdiv_ok hD]; rfl

/-- What `set_misc` does once the lengths are known. -/
noncomputable def build (D L : ℝ) (horizontal : Bool) (A B : Head) : Py Tank := set_misc (some D) (some L) none horizontal A B

/-- C113: any two of `D`, `L` and `L_over_D` give the same tank, in all its attributes; with `D` and `L` given, `L_over_D` is not read. -/
theorem C113_two_lengths (secant : (ℝ → Py ℝ) → ℝ → Py ℝ) {D L : ℝ} (hD : 0 < D) (hL : 0 < L) (horizontal : Bool) (A B : Head) :
    tank secant ⟨some D, none, some (L / D), none, horizontal, A, B⟩ = tank secant ⟨some D, some L, none, none, horizontal, A, B⟩ ∧
    tank secant ⟨none, some L, some (L / D), none, horizontal, A, B⟩ = tank secant ⟨some D, some L, none, none, horizontal, A, B⟩ ∧
    ∀ r, tank secant ⟨some D, some L, some r, none, horizontal, A, B⟩ = tank secant ⟨some D, some L, none, none, horizontal, A, B⟩ := by
  have hv : ¬ truthy none := by rintro ⟨v, h, -⟩; cases h
  have hL0 : L / D ≠ 0 := (div_pos hL hD).ne'
  have e1 : lengths (some D) none (some (L / D)) = lengths (some D) (some L) none := by
    simp only [lengths]
    rw [pdiv_ok hD.ne', Py.ok_bind, mul_div_cancel₀ _ hD.ne']; rfl
  have e2 : lengths none (some L) (some (L / D)) = lengths (some D) (some L) none := by
    simp only [lengths]
    rw [pdiv_ok hD.ne', Py.ok_bind, pdiv_ok hL0, Py.ok_bind, div_div_cancel₀ hL.ne']
  have e3 : ∀ r, lengths (some D) (some L) (some r) = lengths (some D) (some L) none := fun r => by simp only [lengths]
  refine ⟨?_, ?_, fun r => ?_⟩
  · simp only [tank, if_neg hv, set_misc, e1]
  · simp only [tank, if_neg hv, set_misc, e2]
  · simp only [tank, if_neg hv, set_misc, e3]

/-- The parts of a tank that was built. -/
structure Built (D L : ℝ) (horizontal : Bool) (A B : Head) (T : Tank) : Prop where
  D_eq : T.D = D
  L_eq : T.L = L
  LD_eq : T.L_over_D = L / D
  R_eq : T.R = D / 2
  hor : T.horizontal = horizontal
  headA : T.A.head = A.head ∧ T.A.f = A.f ∧ T.A.k = A.k
  headB : T.B.head = B.head ∧ T.B.f = B.f ∧ T.B.k = B.k
  a_A : ∃ a, ratioDepth D A = .ok a ∧ toriDepth D A a = .ok T.A.a
  a_B : ∃ a, ratioDepth D B = .ok a ∧ toriDepth D B a = .ok T.B.a
  ratio_A : T.A.ratio = match T.A.a with | some a => some (a / D) | none => A.ratio
  ratio_B : T.B.ratio = match T.B.a with | some a => some (a / D) | none => B.ratio
  top : T.h_max = if horizontal then D else L + T.A.a.getD 0 + T.B.a.getD 0
  vol : V_tank D L horizontal T.A.side T.B.side = .ok (T.V_total, T.V_sideA, T.V_sideB, T.V_lateral)
  area : SA_tank D L A.head B.head (T.A.a.getD 0) (T.B.a.getD 0) A.f A.k B.f B.k = .ok (T.A_total, T.A_sideA, T.A_sideB, T.A_lateral)
  extra : T.A_sideA_extra = T.A_sideA - 0.25 * π * D * D ∧ T.A_sideB_extra = T.A_sideB - 0.25 * π * D * D

lemma depth_ok {D : ℝ} (hD : D ≠ 0) {X Y : Head} : depth D X = .ok Y ↔ (∃ a, ratioDepth D X = .ok a ∧ toriDepth D X a = .ok Y.a) ∧
    Y.ratio = (match Y.a with | some a => some (a / D) | none => X.ratio) ∧ Y.head = X.head ∧ Y.f = X.f ∧ Y.k = X.k := by
  unfold depth
  constructor
  · intro h
    obtain ⟨a, ha, h⟩ := Py.bind_eq_ok.1 h
    obtain ⟨b, hb, h⟩ := Py.bind_eq_ok.1 h
    rw [setRatio_ok hD, Py.ok_bind] at h
    obtain rfl := (Except.ok.inj h).symm
    exact ⟨⟨a, ha, hb⟩, rfl, rfl, rfl, rfl⟩
  · rintro ⟨⟨a, ha, hb⟩, hr, h1, h2, h3⟩
    rw [ha, Py.ok_bind, hb, Py.ok_bind, setRatio_ok hD, Py.ok_bind]
    cases Y
    simp only at *
    subst h1 h2 h3
    rw [hr]
    rfl

/-- Characterisation of the constructor: exactly the tanks with these parts are built. -/
lemma built_iff {D L : ℝ} (hD : D ≠ 0) {horizontal : Bool} {A B : Head} {T : Tank} :
    set_misc (some D) (some L) none horizontal A B = .ok T ↔ Built D L horizontal A B T := by
  unfold set_misc
  simp only [lengths]
  rw [pdiv_ok hD, Py.ok_bind]
  show (do let A ← depth D A; _) = _ ↔ _
  constructor
  · intro h
    obtain ⟨A', hA, h⟩ := Py.bind_eq_ok.1 h
    obtain ⟨B', hB, h⟩ := Py.bind_eq_ok.1 h
    obtain ⟨⟨V, VA, VB, Vl⟩, hV, h⟩ := Py.bind_eq_ok.1 h
    obtain ⟨⟨S, SA, SB, Sl⟩, hS, h⟩ := Py.bind_eq_ok.1 h
    obtain rfl := (Except.ok.inj h).symm
    obtain ⟨a1, a2, a3, a4, a5⟩ := (depth_ok hD).1 hA
    obtain ⟨b1, b2, b3, b4, b5⟩ := (depth_ok hD).1 hB
    rw [a3, b3, a4, a5, b4, b5] at hS
    exact ⟨rfl, rfl, rfl, rfl, rfl, ⟨a3, a4, a5⟩, ⟨b3, b4, b5⟩, a1, b1, a2, b2, rfl, hV, hS, rfl, rfl⟩
  · intro h
    obtain ⟨h1, h2, h3, h4, h5, h6, h7, h8, h9, h10, h11, h12, h13, h14, h15, h16⟩ := h
    have hA : depth D A = .ok T.A := (depth_ok hD).2 ⟨h8, h10, h6.1, h6.2.1, h6.2.2⟩
    have hB : depth D B = .ok T.B := (depth_ok hD).2 ⟨h9, h11, h7.1, h7.2.1, h7.2.2⟩
    rw [hA, Py.ok_bind, hB, Py.ok_bind]
    dsimp only
    rw [h13, Py.ok_bind, h6.1, h7.1, h6.2.1, h6.2.2, h7.2.1, h7.2.2, h14, Py.ok_bind]
    cases T
    simp only at *
    subst h1 h2 h3 h4 h5 h12 h15 h16
    rfl

lemma lengths_ok {D L LD : Option ℝ} {d l r : ℝ} (h : lengths D L LD = .ok (d, l, r)) (hd : d ≠ 0) : r = l / d ∧ lengths (some d) (some l) none = .ok (d, l, r) := by
  have key : r = l / d := by
    cases D with
    | some D' =>
      cases L with
      | some L' =>
        simp only [lengths] at h
        obtain ⟨q, hq, h⟩ := Py.bind_eq_ok.1 h
        obtain ⟨rfl, rfl, rfl⟩ : D' = d ∧ L' = l ∧ q = r := by simpa [Py.pure_eq] using h
        rw [pdiv_ok hd] at hq
        exact (Except.ok.inj hq).symm
      | none =>
        cases LD with
        | none => simp [lengths] at h
        | some r' =>
          obtain ⟨rfl, rfl, rfl⟩ : D' = d ∧ D' * r' = l ∧ r' = r := by simpa [lengths] using h
          rw [mul_div_cancel_left₀ _ hd]
    | none =>
      cases L with
      | none => simp [lengths] at h
      | some L' =>
        cases LD with
        | none => simp [lengths] at h
        | some r' =>
          simp only [lengths] at h
          obtain ⟨q, hq, h⟩ := Py.bind_eq_ok.1 h
          obtain ⟨rfl, rfl, rfl⟩ : q = d ∧ L' = l ∧ r' = r := by simpa [Py.pure_eq] using h
          by_cases hr : r' = 0
          · rw [hr, pdiv_zero] at hq; cases hq
          · rw [pdiv_ok hr] at hq
            rw [← Except.ok.inj hq] at hd ⊢
            have hl : L' ≠ 0 := fun hc => hd (by rw [hc, zero_div])
            rw [div_div_cancel₀ hl]
  refine ⟨key, ?_⟩
  simp only [lengths]
  rw [pdiv_ok hd, key]
  rfl

/-- However the lengths were given, the tank is the one built from its `D` and `L`. -/
lemma misc_built {D L LD : Option ℝ} {horizontal : Bool} {A B : Head} {T : Tank} (h : set_misc D L LD horizontal A B = .ok T) (hD : T.D ≠ 0) :
    set_misc (some T.D) (some T.L) none horizontal A B = .ok T := by
  have h' := h
  unfold set_misc at h
  obtain ⟨⟨d, l, r⟩, hl, h⟩ := Py.bind_eq_ok.1 h
  dsimp only at h
  obtain ⟨A', hA, h⟩ := Py.bind_eq_ok.1 h
  obtain ⟨B', hB, h⟩ := Py.bind_eq_ok.1 h
  obtain ⟨⟨V, VA, VB, Vl⟩, hV, h⟩ := Py.bind_eq_ok.1 h
  obtain ⟨⟨S, SA, SB, Sl⟩, hS, h⟩ := Py.bind_eq_ok.1 h
  obtain rfl := (Except.ok.inj h).symm
  obtain ⟨-, e⟩ := lengths_ok hl hD
  rw [← h']
  unfold set_misc
  simp only at hD ⊢
  rw [e, hl]

/-- Every tank: the ends after the treatment of "same", with their defaults, and the tank built from its final lengths. -/
lemma tank_built {secant : (ℝ → Py ℝ) → ℝ → Py ℝ} {s : Spec} {T : Tank} (h : tank secant s = .ok T) (hD : T.D ≠ 0) :
    ∃ A B, sides s.A s.B = .ok (A, B) ∧ Built T.D T.L s.horizontal (defaults A) (defaults B) T := by
  unfold tank at h
  obtain ⟨⟨A, B⟩, hs, h⟩ := Py.bind_eq_ok.1 h
  dsimp only at h
  refine ⟨A, B, hs, ?_⟩
  rw [← built_iff hD]
  split_ifs at h with hV
  · obtain ⟨⟨D, L⟩, hsolve, h⟩ := Py.bind_eq_ok.1 h
    exact misc_built h hD
  · exact misc_built h hD

/-- C113: the attributes of every tank fit together: lengths, radius, ratios, totals, lateral parts, extra areas and height. -/
theorem C113_attributes {secant : (ℝ → Py ℝ) → ℝ → Py ℝ} {s : Spec} {T : Tank} (h : tank secant s = .ok T) (hD : 0 < T.D) :
    T.L_over_D * T.D = T.L ∧ 2 * T.R = T.D ∧ T.horizontal = s.horizontal ∧
    (∀ a, T.A.a = some a → ∃ r, T.A.ratio = some r ∧ r * T.D = a) ∧ (∀ a, T.B.a = some a → ∃ r, T.B.ratio = some r ∧ r * T.D = a) ∧
    T.V_total = T.V_sideA + T.V_sideB + T.V_lateral ∧ T.V_lateral = π / 4 * T.D ^ 2 * T.L ∧
    T.A_total = T.A_sideA + T.A_sideB + T.A_lateral ∧ T.A_lateral = π * T.D * T.L ∧
    T.A_sideA_extra = T.A_sideA - π / 4 * T.D ^ 2 ∧ T.A_sideB_extra = T.A_sideB - π / 4 * T.D ^ 2 ∧
    T.h_max = if T.horizontal then T.D else T.L + T.A.a.getD 0 + T.B.a.getD 0 := by
  obtain ⟨A, B, -, b⟩ := tank_built h hD.ne'
  have hD' := hD.ne'
  have hvol := b.vol
  have harea := b.area
  have hV : T.V_total = T.V_sideA + T.V_sideB + T.V_lateral ∧ T.V_lateral = π / 4 * T.D ^ 2 * T.L := by
    unfold V_tank at hvol
    obtain ⟨-, -, hvol⟩ := Py.bind_eq_ok.1 hvol
    obtain ⟨-, -, hvol⟩ := Py.bind_eq_ok.1 hvol
    obtain ⟨⟨fA, kA⟩, -, hvol⟩ := Py.bind_eq_ok.1 hvol
    obtain ⟨⟨fB, kB⟩, -, hvol⟩ := Py.bind_eq_ok.1 hvol
    obtain ⟨⟨VA, VB, lat⟩, hp, hvol⟩ := Py.bind_eq_ok.1 hvol
    obtain ⟨e1, e2, e3, e4⟩ : lat + VA + VB = T.V_total ∧ VA = T.V_sideA ∧ VB = T.V_sideB ∧ lat = T.V_lateral := by simpa [Py.pure_eq] using hvol
    rw [← e1, ← e2, ← e3, ← e4]
    refine ⟨by ring, ?_⟩
    cases hh : s.horizontal with
    | true =>
      rw [hh] at hp
      simp only [if_true] at hp
      unfold V_tank_horizontal at hp
      obtain ⟨⟨_, _⟩, -, hp⟩ := Py.bind_eq_ok.1 hp
      obtain ⟨⟨_, _⟩, -, hp⟩ := Py.bind_eq_ok.1 hp
      obtain ⟨⟨_, _⟩, -, hp⟩ := Py.bind_eq_ok.1 hp
      obtain ⟨⟨_, _⟩, -, hp⟩ := Py.bind_eq_ok.1 hp
      obtain ⟨⟨_, _⟩, -, hp⟩ := Py.bind_eq_ok.1 hp
      obtain ⟨Af, hseg, hp⟩ := Py.bind_eq_ok.1 hp
      have hR : 0 < T.D / 2 := by linarith
      rw [show (0.5 : ℝ) * T.D = T.D / 2 by ring, segment_ok hR hD.le (by linarith)] at hseg
      have hf := segArea_full hR
      rw [show 2 * (T.D / 2) = T.D by ring] at hf
      have e5 : T.L * Af = lat := by
        have := Except.ok.inj hp
        exact congrArg (fun p : ℝ × ℝ × ℝ => p.2.2) this
      rw [← e5, ← Except.ok.inj hseg, hf]
      ring
    | false =>
      rw [hh] at hp
      simp only [Bool.false_eq_true, if_false] at hp
      unfold V_tank_vertical at hp
      obtain ⟨⟨_, _⟩, -, hp⟩ := Py.bind_eq_ok.1 hp
      obtain ⟨⟨_, _⟩, -, hp⟩ := Py.bind_eq_ok.1 hp
      obtain ⟨⟨_, _⟩, -, hp⟩ := Py.bind_eq_ok.1 hp
      obtain ⟨⟨_, _⟩, -, hp⟩ := Py.bind_eq_ok.1 hp
      have e5 : 0.25 * π * T.D * T.D * T.L = lat := by
        have := Except.ok.inj hp
        exact congrArg (fun p : ℝ × ℝ × ℝ => p.2.2) this
      rw [← e5]
      ring
  have hA : T.A_total = T.A_sideA + T.A_sideB + T.A_lateral ∧ T.A_lateral = π * T.D * T.L := by
    unfold SA_tank at harea
    obtain ⟨a, -, harea⟩ := Py.bind_eq_ok.1 harea
    obtain ⟨c, -, harea⟩ := Py.bind_eq_ok.1 harea
    obtain ⟨e1, e2, e3, e4⟩ : a + c + π * T.D * T.L = T.A_total ∧ a = T.A_sideA ∧ c = T.A_sideB ∧ π * T.D * T.L = T.A_lateral := by simpa [Py.pure_eq] using harea
    rw [← e1, ← e2, ← e3, ← e4]
    exact ⟨rfl, rfl⟩
  refine ⟨?_, ?_, b.hor, ?_, ?_, hV.1, hV.2, hA.1, hA.2, ?_, ?_, ?_⟩
  · rw [b.LD_eq, div_mul_cancel₀ _ hD']
  · rw [b.R_eq]; ring
  · intro a ha
    have := b.ratio_A
    rw [ha] at this
    exact ⟨a / T.D, this, div_mul_cancel₀ _ hD'⟩
  · intro a ha
    have := b.ratio_B
    rw [ha] at this
    exact ⟨a / T.D, this, div_mul_cancel₀ _ hD'⟩
  · rw [b.extra.1]; ring
  · rw [b.extra.2]; ring
  · rw [b.hor]; exact b.top

lemma sides_same {A B : Head} (hA : A.head ≠ some "same") (hB : B.head = some "same") : sides A B = .ok (A, A) ∧ sides B A = .ok (A, A) := by
  simp [sides, hA, hB]

lemma sides_plain {A B : Head} (hA : A.head ≠ some "same") (hB : B.head ≠ some "same") : sides A B = .ok (A, B) := by
  simp [sides, hA, hB]

lemma V_tank_symm {D L : ℝ} {horizontal : Bool} {X : Side} {V VA VB Vl : ℝ} (h : V_tank D L horizontal X X = .ok (V, VA, VB, Vl)) : VA = VB := by
  have hset : ∀ {x y : ℝ} {on : Bool} {F : Py ℝ} {p : ℝ × ℝ}, x = y → setHeads x y on on true F F = .ok p → p.1 = p.2 := by
    intro x y on F p hxy h
    cases on with
    | true =>
      simp only [setHeads, Bool.and_self, if_true] at h
      obtain ⟨v, -, h⟩ := Py.bind_eq_ok.1 h
      rw [← Except.ok.inj h]
    | false =>
      have : (x, y) = p := by simpa [setHeads, Py.ok_bind, Py.pure_eq] using h
      rw [← this]; exact hxy
  unfold V_tank at h
  obtain ⟨-, -, h⟩ := Py.bind_eq_ok.1 h
  obtain ⟨-, -, h⟩ := Py.bind_eq_ok.1 h
  obtain ⟨⟨fA, kA⟩, h1, h⟩ := Py.bind_eq_ok.1 h
  obtain ⟨⟨fB, kB⟩, h2, h⟩ := Py.bind_eq_ok.1 h
  obtain ⟨rfl, rfl⟩ : fA = fB ∧ kA = kB := by simpa using Except.ok.inj (h1.symm.trans h2)
  obtain ⟨⟨WA, WB, lat⟩, hp, h⟩ := Py.bind_eq_ok.1 h
  obtain ⟨-, e2, e3, -⟩ : lat + WA + WB = V ∧ WA = VA ∧ WB = VB ∧ lat = Vl := by simpa [Py.pure_eq] using h
  rw [← e2, ← e3]
  cases horizontal with
  | true =>
    simp only [if_true] at hp
    unfold V_tank_horizontal at hp
    simp only [decide_true, true_and, and_self] at hp
    obtain ⟨⟨_, _⟩, q1, hp⟩ := Py.bind_eq_ok.1 hp
    obtain ⟨⟨_, _⟩, q2, hp⟩ := Py.bind_eq_ok.1 hp
    obtain ⟨⟨_, _⟩, q3, hp⟩ := Py.bind_eq_ok.1 hp
    obtain ⟨⟨_, _⟩, q4, hp⟩ := Py.bind_eq_ok.1 hp
    obtain ⟨⟨_, _⟩, q5, hp⟩ := Py.bind_eq_ok.1 hp
    obtain ⟨_, _, hp⟩ := Py.bind_eq_ok.1 hp
    have := hset (hset (hset (hset (hset rfl q1) q2) q3) q4) q5
    have e := Except.ok.inj hp
    exact (congrArg (fun p : ℝ × ℝ × ℝ => p.1) e).symm.trans (this.trans (congrArg (fun p : ℝ × ℝ × ℝ => p.2.1) e))
  | false =>
    simp only [Bool.false_eq_true, if_false] at hp
    unfold V_tank_vertical at hp
    simp only [decide_true, true_and, and_self] at hp
    obtain ⟨⟨_, _⟩, q1, hp⟩ := Py.bind_eq_ok.1 hp
    obtain ⟨⟨_, _⟩, q2, hp⟩ := Py.bind_eq_ok.1 hp
    obtain ⟨⟨_, _⟩, q3, hp⟩ := Py.bind_eq_ok.1 hp
    obtain ⟨⟨_, _⟩, q4, hp⟩ := Py.bind_eq_ok.1 hp
    have := hset (hset (hset (hset rfl q1) q2) q3) q4
    have e := Except.ok.inj hp
    exact (congrArg (fun p : ℝ × ℝ × ℝ => p.1) e).symm.trans (this.trans (congrArg (fun p : ℝ × ℝ × ℝ => p.2.1) e))

/-- C113: "same" on one side is the tank with the other side's description on both, whatever else was said about that side; both ends, their volumes and
areas are then equal.  "same" on both sides raises ValueError. -/
theorem C113_same (secant : (ℝ → Py ℝ) → ℝ → Py ℝ) (D L LD V : Option ℝ) (horizontal : Bool) (A B : Head) (hA : A.head ≠ some "same") (hB : B.head = some "same") :
    tank secant ⟨D, L, LD, V, horizontal, A, B⟩ = tank secant ⟨D, L, LD, V, horizontal, A, A⟩ ∧
    tank secant ⟨D, L, LD, V, horizontal, B, A⟩ = tank secant ⟨D, L, LD, V, horizontal, A, A⟩ ∧
    (∀ T, tank secant ⟨D, L, LD, V, horizontal, A, A⟩ = .ok T → T.D ≠ 0 → T.A = T.B ∧ T.V_sideA = T.V_sideB ∧ T.A_sideA = T.A_sideB) ∧
    (∀ B', B'.head = some "same" → tank secant ⟨D, L, LD, V, horizontal, B', B⟩ = .error .valueError) := by
  refine ⟨?_, ?_, ?_, ?_⟩
  · simp only [tank, (sides_same hA hB).1, sides_plain hA hA]
  · simp only [tank, (sides_same hA hB).2, sides_plain hA hA]
  · intro T h hD
    obtain ⟨A1, B1, hs, b⟩ := tank_built h hD
    simp only at hs
    rw [sides_plain hA hA] at hs
    obtain ⟨rfl, rfl⟩ : A = A1 ∧ A = B1 := by simpa using hs
    obtain ⟨a1, h1, h1'⟩ := b.a_A
    obtain ⟨a2, h2, h2'⟩ := b.a_B
    obtain rfl : a1 = a2 := Except.ok.inj (h1.symm.trans h2)
    have ea : T.A.a = T.B.a := Except.ok.inj (h1'.symm.trans h2')
    have er : T.A.ratio = T.B.ratio := by rw [b.ratio_A, b.ratio_B, ea]
    have e : T.A = T.B := by
      obtain ⟨c1, c2, c3⟩ := b.headA
      obtain ⟨d1, d2, d3⟩ := b.headB
      exact Head.ext (c1.trans d1.symm) ea er (c2.trans d2.symm) (c3.trans d3.symm)
    refine ⟨e, ?_, ?_⟩
    · have := b.vol
      rw [e] at this
      exact V_tank_symm this
    · have := b.area
      rw [e] at this
      unfold SA_tank at this
      obtain ⟨x, hx, this⟩ := Py.bind_eq_ok.1 this
      simp only [true_and, if_true] at this
      have e1 := Except.ok.inj this
      exact (congrArg (fun p : ℝ × ℝ × ℝ × ℝ => p.2.1) e1).symm.trans (congrArg (fun p : ℝ × ℝ × ℝ × ℝ => p.2.2.1) e1)
  · intro B' hB'
    simp [tank, sides, hB, hB', Py.error_bind]

/-- C113: the depth of each end.  No head without a depth is flat; a depth that was given is kept; a ratio gives the depth `ratio·D`, by default a quarter of
the diameter; torispherical heads get theirs from `f` and `k`, by default 1 and 0.06. -/
theorem C113_depths {secant : (ℝ → Py ℝ) → ℝ → Py ℝ} {s : Spec} {T : Tank} (h : tank secant s = .ok T) (hD : T.D ≠ 0) (hA : s.A.head ≠ some "same") (hB : s.B.head ≠ some "same") :
    (s.A.head = none → s.A.a = none → T.A.a = some 0) ∧
    (∀ a, s.A.a = some a → s.A.head ≠ some "torispherical" → T.A.a = some a) ∧
    (∀ r, s.A.head ∈ [some "conical", some "ellipsoidal", some "guppy", some "spherical"] → s.A.a = none → s.A.ratio = some r → T.A.a = some (r * T.D)) ∧
    (s.A.head ∈ [some "conical", some "ellipsoidal", some "guppy", some "spherical"] → s.A.a = none → s.A.ratio = none → T.A.a = some (T.D / 4)) ∧
    (s.A.head = some "torispherical" → s.A.a = none → ∃ a, a_torispherical T.D (s.A.f.getD 1) (s.A.k.getD 0.06) = .ok a ∧ T.A.a = some a ∧ T.A.f = some (s.A.f.getD 1) ∧ T.A.k = some (s.A.k.getD 0.06)) := by
  obtain ⟨A, B, hs, b⟩ := tank_built h hD
  rw [sides_plain hA hB] at hs
  obtain ⟨rfl, rfl⟩ : s.A = A ∧ s.B = B := by simpa using hs
  obtain ⟨a, h1, h2⟩ := b.a_A
  have hh := b.headA
  generalize s.A = X at *
  obtain ⟨hd, xa, xr, xf, xk⟩ := X
  simp only at *
  refine ⟨?_, ?_, ?_, ?_, ?_⟩
  · rintro rfl rfl
    simp only [defaults, ratioDepth, toriDepth, and_self, if_true, reduceCtorEq, if_false] at h1 h2
    obtain rfl := Except.ok.inj h1
    exact (Except.ok.inj h2).symm
  · rintro a' rfl ht
    simp only [defaults, ratioDepth, toriDepth, reduceCtorEq, and_false, if_false, if_neg ht] at h1 h2
    obtain rfl := Except.ok.inj h1
    exact (Except.ok.inj h2).symm
  · rintro r hm rfl rfl
    have h0 : hd ≠ none := by rintro rfl; simp at hm
    have ht : hd ≠ some "torispherical" := by rintro rfl; simp at hm
    simp only [defaults, ratioDepth, toriDepth, reduceCtorEq, false_and, and_false, if_false, if_neg ht, h0, if_pos hm] at h1 h2
    obtain rfl := Except.ok.inj h1
    rw [← Except.ok.inj h2, mul_comm]
  · rintro hm rfl rfl
    have h0 : hd ≠ none := by rintro rfl; simp at hm
    have ht : hd ≠ some "torispherical" := by rintro rfl; simp at hm
    simp only [defaults, ratioDepth, toriDepth, false_and, and_self, ne_eq, not_false_eq_true, if_true, if_false, ht, h0, if_pos hm] at h1 h2
    obtain rfl := Except.ok.inj h1
    rw [← Except.ok.inj h2]
    congr 1
    ring
  · rintro rfl rfl
    simp only [defaults, ratioDepth, toriDepth, reduceCtorEq, false_and, true_and, and_false, not_true_eq_false, ne_eq, if_false, if_true] at h1 h2 hh
    rw [if_neg (by simp)] at h1
    obtain rfl := Except.ok.inj h1
    have ef : (if xf = none then some (1 : ℝ) else xf) = some (xf.getD 1) := by cases xf <;> simp
    have ek : (if xk = none then some (0.06 : ℝ) else xk) = some (xk.getD 0.06) := by cases xk <;> simp
    rw [ef, ek] at h2 hh
    simp only at h2
    obtain ⟨d, hd, h2⟩ := Py.bind_eq_ok.1 h2
    exact ⟨d, hd, (Except.ok.inj h2).symm, hh.2.1, hh.2.2⟩

/-- An end whose depth is known and whose description is complete, as in every finished tank. -/
def Complete (D : ℝ) (X : Head) : Prop :=
  X.head ≠ some "same" ∧ ∃ a, X.a = some a ∧ (X.head = some "torispherical" → ∃ f k, X.f = some f ∧ X.k = some k ∧ a_torispherical D f k = .ok a)

lemma complete_of {D : ℝ} {A X : Head} {a : Option ℝ} (hc : checkSide X.head = .ok ()) (hfk : ∃ p, sideFK X.head X.f X.k = .ok p) (hh : X.head = (defaults A).head ∧ X.f = (defaults A).f ∧ X.k = (defaults A).k)
    (h1 : ratioDepth D (defaults A) = .ok a) (h2 : toriDepth D (defaults A) a = .ok X.a) : Complete D X := by
  obtain ⟨e1, e2, e3⟩ := hh
  have hsame : X.head ≠ some "same" := by
    intro hc'
    rw [hc'] at hc
    simp [checkSide, headNames] at hc
  refine ⟨hsame, ?_⟩
  by_cases ht : X.head = some "torispherical"
  · obtain ⟨p, hp⟩ := hfk
    simp only [sideFK, if_pos ht] at hp
    cases hf : X.f with
    | none => rw [hf] at hp; simp at hp
    | some f =>
      cases hk : X.k with
      | none => rw [hf, hk] at hp; simp at hp
      | some k =>
        simp only [toriDepth, ← e1, ← e2, ← e3, if_pos ht, hf, hk] at h2
        obtain ⟨d, hd, h2⟩ := Py.bind_eq_ok.1 h2
        exact ⟨d, (Except.ok.inj h2).symm, fun _ => ⟨f, k, rfl, rfl, hd⟩⟩
  · simp only [toriDepth, ← e1, if_neg ht] at h2
    have ea := Except.ok.inj h2
    have hA : A.head = X.head := by rw [e1]; rfl
    suffices ∃ d, a = some d by
      obtain ⟨d, hd⟩ := this
      exact ⟨d, by rw [← ea, hd], fun h => absurd h ht⟩
    unfold ratioDepth at h1
    cases hda : (defaults A).a with
    | some d =>
      rw [hda] at h1
      exact ⟨d, (Except.ok.inj h1).symm⟩
    | none =>
      rw [hda] at h1
      simp only at h1
      have h0 : X.head ≠ none := by
        intro h0
        rw [← hA] at h0
        simp only [defaults, h0, true_and] at hda
        split_ifs at hda with hz
        exact hz hda
      have hm : (defaults A).head ∈ [some "conical", some "ellipsoidal", some "guppy", some "spherical"] := by
        rw [← e1]
        cases hx : X.head with
        | none => exact absurd hx h0
        | some n =>
          rw [hx] at hc ht
          simp only [checkSide] at hc
          split_ifs at hc with hn
          simp only [headNames, List.mem_cons, List.not_mem_nil, or_false] at hn
          rcases hn with rfl | rfl | rfl | rfl | rfl <;> simp at ht ⊢
      rw [if_pos hm] at h1
      cases hr : (defaults A).ratio with
      | none => rw [hr] at h1; cases h1
      | some r => rw [hr] at h1; exact ⟨D * r, (Except.ok.inj h1).symm⟩

lemma complete {secant : (ℝ → Py ℝ) → ℝ → Py ℝ} {s : Spec} {T : Tank} (h : tank secant s = .ok T) (hD : T.D ≠ 0) : Complete T.D T.A ∧ Complete T.D T.B := by
  obtain ⟨A, B, -, b⟩ := tank_built h hD
  have hv := b.vol
  unfold V_tank at hv
  obtain ⟨u1, c1, hv⟩ := Py.bind_eq_ok.1 hv
  obtain ⟨u2, c2, hv⟩ := Py.bind_eq_ok.1 hv
  obtain ⟨pA, c3, hv⟩ := Py.bind_eq_ok.1 hv
  obtain ⟨pB, c4, hv⟩ := Py.bind_eq_ok.1 hv
  obtain ⟨a, a1, a2⟩ := b.a_A
  obtain ⟨a', b1, b2⟩ := b.a_B
  exact ⟨complete_of c1 ⟨pA, c3⟩ b.headA a1 a2, complete_of c2 ⟨pB, c4⟩ b.headB b1 b2⟩

/-- The description of an end that `add_thickness` passes on. -/
noncomputable def thickened (X : Head) (t : ℝ) : Head := ⟨X.head, if X.head = some "torispherical" then none else some (X.a.getD 0 + t), none, X.f, X.k⟩

lemma thicker_ok {D : ℝ} {X : Head} (hX : Complete D X) (t : ℝ) : thicker X t = .ok (thickened X t) ∧ defaults (thickened X t) = thickened X t ∧ (thickened X t).head ≠ some "same" := by
  obtain ⟨hs, a, ha, hf⟩ := hX
  refine ⟨?_, ?_, hs⟩
  · unfold thicker thickened
    by_cases ht : X.head = some "torispherical"
    · rw [if_neg (not_not.2 ht), if_pos ht]
    · rw [if_pos ht, if_neg ht, ha]
      rfl
  · unfold thickened defaults
    by_cases ht : X.head = some "torispherical"
    · obtain ⟨f, k, e1, e2, -⟩ := hf ht
      simp [ht, e1, e2]
    · simp [ht]

lemma add_thickness_eq {T : Tank} (hA : Complete T.D T.A) (hB : Complete T.D T.B) (t : ℝ) (tA tB : Option ℝ) :
    T.add_thickness t tA tB = set_misc (some (T.D + 2 * t)) (some (T.L + (tA.getD t + tB.getD t))) none T.horizontal (thickened T.A (tA.getD t)) (thickened T.B (tB.getD t)) := by
  obtain ⟨a1, a2, a3⟩ := thicker_ok hA (tA.getD t)
  obtain ⟨b1, b2, b3⟩ := thicker_ok hB (tB.getD t)
  unfold Tank.add_thickness plain
  simp only
  rw [a1, Py.ok_bind, b1, Py.ok_bind, sides_plain a3 b3, Py.ok_bind]
  dsimp only
  rw [a2, b2]

lemma thickened_depth {D' : ℝ} {X : Head} {t : ℝ} {a d : Option ℝ} (h1 : ratioDepth D' (thickened X t) = .ok a) (h2 : toriDepth D' (thickened X t) a = .ok d) (ht : X.head ≠ some "torispherical") :
    d = some (X.a.getD 0 + t) := by
  unfold thickened at h1 h2
  rw [if_neg ht] at h1 h2
  simp only [ratioDepth] at h1
  obtain rfl := Except.ok.inj h1
  simp only [toriDepth, if_neg ht] at h2
  exact (Except.ok.inj h2).symm

/-- C113: adding no thickness returns the same tank, in all its attributes. -/
theorem C113_thickness_zero {secant : (ℝ → Py ℝ) → ℝ → Py ℝ} {s : Spec} {T : Tank} (h : tank secant s = .ok T) (hD : T.D ≠ 0) : T.add_thickness 0 = .ok T := by
  obtain ⟨hA, hB⟩ := complete h hD
  obtain ⟨A, B, -, b⟩ := tank_built h hD
  rw [add_thickness_eq hA hB]
  simp only [Option.getD_none, add_zero, mul_zero]
  rw [built_iff hD]
  have side : ∀ X : Head, Complete T.D X → ∃ a, ratioDepth T.D (thickened X 0) = .ok a ∧ toriDepth T.D (thickened X 0) a = .ok X.a := by
    rintro X ⟨hs, a, ha, hf⟩
    by_cases ht : X.head = some "torispherical"
    · obtain ⟨f, k, e1, e2, e3⟩ := hf ht
      refine ⟨none, ?_, ?_⟩
      · unfold thickened ratioDepth
        simp [ht]
      · unfold thickened toriDepth
        simp only [ht, e1, e2, if_true]
        rw [e3, Py.ok_bind, ha]; rfl
    · refine ⟨some a, ?_, ?_⟩
      · unfold thickened ratioDepth
        simp [ht, ha]
      · unfold thickened toriDepth
        simp [ht, ha]
  obtain ⟨-, aA, eA, -⟩ := hA
  obtain ⟨-, aB, eB, -⟩ := hB
  have hh := b.headA
  have hh' := b.headB
  refine ⟨rfl, rfl, b.LD_eq, b.R_eq, rfl, ⟨rfl, rfl, rfl⟩, ⟨rfl, rfl, rfl⟩, side _ (complete h hD).1, side _ (complete h hD).2, ?_, ?_, ?_, ?_, ?_, b.extra⟩
  · rw [b.ratio_A, eA]
  · rw [b.ratio_B, eB]
  · rw [b.hor]; exact b.top
  · rw [b.hor]; exact b.vol
  · have := b.area
    rw [← hh.1, ← hh'.1, ← hh.2.1, ← hh.2.2, ← hh'.2.1, ← hh'.2.2] at this
    exact this

/-- C113: adding thickness twice is adding the sum. -/
theorem C113_thickness_add {secant : (ℝ → Py ℝ) → ℝ → Py ℝ} {s : Spec} {T T' : Tank} (h : tank secant s = .ok T) (hD : T.D ≠ 0) {t tA tB : ℝ} (hD' : T.D + 2 * t ≠ 0)
    (h' : T.add_thickness t (some tA) (some tB) = .ok T') (u uA uB : ℝ) :
    T'.add_thickness u (some uA) (some uB) = T.add_thickness (t + u) (some (tA + uA)) (some (tB + uB)) := by
  obtain ⟨hA, hB⟩ := complete h hD
  rw [add_thickness_eq hA hB]
  have hsp := thicker_ok hA tA
  have hsp' := thicker_ok hB tB
  have h2 := h'
  rw [add_thickness_eq hA hB, built_iff hD'] at h2
  simp only [Option.getD_some] at h2 ⊢
  have hT' : tank secant ⟨some (T.D + 2 * t), some (T.L + (tA + tB)), none, none, T.horizontal, thickened T.A tA, thickened T.B tB⟩ = .ok T' := by
    have hv : ¬ truthy none := by rintro ⟨v, h, -⟩; cases h
    unfold tank
    simp only
    rw [sides_plain hsp.2.2 hsp'.2.2, Py.ok_bind]
    dsimp only
    rw [if_neg hv, hsp.2.1, hsp'.2.1, built_iff hD']
    exact h2
  have hD1 : T'.D ≠ 0 := by rw [h2.D_eq]; exact hD'
  obtain ⟨hA', hB'⟩ := complete hT' hD1
  rw [add_thickness_eq hA' hB']
  simp only [Option.getD_some]
  have same : ∀ (X Y : Head) (t u : ℝ), Y.head = (thickened X t).head ∧ Y.f = (thickened X t).f ∧ Y.k = (thickened X t).k →
      (X.head ≠ some "torispherical" → Y.a = some (X.a.getD 0 + t)) → thickened Y u = thickened X (t + u) := by
    intro X Y t u hh ha
    obtain ⟨e1, e2, e3⟩ := hh
    unfold thickened at e1 e2 e3 ⊢
    simp only at e1 e2 e3
    rw [e1, e2, e3]
    by_cases ht : X.head = some "torispherical"
    · rw [if_pos ht, if_pos ht]
    · rw [if_neg ht, if_neg ht, ha ht, Option.getD_some, add_assoc]
  have eA : thickened T'.A uA = thickened T.A (tA + uA) := by
    obtain ⟨a, a1, a2⟩ := h2.a_A
    exact same T.A T'.A tA uA h2.headA (thickened_depth a1 a2)
  have eB : thickened T'.B uB = thickened T.B (tB + uB) := by
    obtain ⟨a, a1, a2⟩ := h2.a_B
    exact same T.B T'.B tB uB h2.headB (thickened_depth a1 a2)
  rw [eA, eB, h2.D_eq, h2.L_eq, h2.hor, show T.D + 2 * t + 2 * u = T.D + 2 * (t + u) by ring, show T.L + (tA + tB) + (uA + uB) = T.L + (tA + uA + (tB + uB)) by ring]

/-- C113 (finding): the wall thickness of an end is added both to the length and to the depth of its head (even of a flat end), so that a vertical tank without
torispherical heads grows by twice the thickness of its two ends. -/
theorem C113_thickness_height {secant : (ℝ → Py ℝ) → ℝ → Py ℝ} {s : Spec} {T T' : Tank} (h : tank secant s = .ok T) (hD : T.D ≠ 0) {t tA tB : ℝ} (hD' : T.D + 2 * t ≠ 0)
    (h' : T.add_thickness t (some tA) (some tB) = .ok T') (hA : T.A.head ≠ some "torispherical") (hB : T.B.head ≠ some "torispherical") :
    T'.D = T.D + 2 * t ∧ T'.L = T.L + tA + tB ∧ T'.h_max = if T.horizontal then T.h_max + 2 * t else T.h_max + 2 * (tA + tB) := by
  obtain ⟨cA, cB⟩ := complete h hD
  obtain ⟨A, B, -, b⟩ := tank_built h hD
  have h2 := h'
  rw [add_thickness_eq cA cB, built_iff hD'] at h2
  simp only [Option.getD_some] at h2
  obtain ⟨a, a1, a2⟩ := h2.a_A
  obtain ⟨a', b1, b2⟩ := h2.a_B
  have eA := thickened_depth a1 a2 hA
  have eB := thickened_depth b1 b2 hB
  refine ⟨h2.D_eq, by rw [h2.L_eq]; ring, ?_⟩
  rw [h2.top, b.top, b.hor]
  cases s.horizontal with
  | true => simp
  | false =>
    simp only [Bool.false_eq_true, if_false]
    rw [eA, eB, Option.getD_some, Option.getD_some]
    ring

lemma side_head (X : Head) : X.side.head = X.head ∧ X.side.f = X.f ∧ X.side.k = X.k ∧ X.side.a = X.a.getD 0 := ⟨rfl, rfl, rfl, rfl⟩

/-- Two torispherical heads with the same parameters have the same depth. -/
lemma tori_same {T : Tank} (cA : Complete T.D T.A) (cB : Complete T.D T.B) :
    T.A.side.head = some "torispherical" → T.B.side.head = some "torispherical" → T.A.side.f = T.B.side.f → T.A.side.k = T.B.side.k → T.A.side.a = T.B.side.a := by
  intro t1 t2 t3 t4
  obtain ⟨-, a, ea, fa⟩ := cA
  obtain ⟨-, a', eb, fb⟩ := cB
  obtain ⟨f, k, e1, e2, e3⟩ := fa t1
  obtain ⟨f', k', g1, g2, g3⟩ := fb t2
  obtain rfl : f = f' := by
    have : some f = some f' := by rw [← e1, ← g1]; exact t3
    exact Option.some.inj this
  obtain rfl : k = k' := by
    have : some k = some k' := by rw [← e2, ← g2]; exact t4
    exact Option.some.inj this
  have : a = a' := Except.ok.inj (e3.symm.trans g3)
  show T.A.a.getD 0 = T.B.a.getD 0
  rw [ea, eb, this]

/-- C113: for heads of ordinary shape, the volume at the height `h_max` is the total volume, it is 0 at the bottom and it grows with the level. -/
theorem C113_full {secant : (ℝ → Py ℝ) → ℝ → Py ℝ} {s : Spec} {T : Tank} (h : tank secant s = .ok T) (hD : 0 < T.D) (hL : 0 ≤ T.L)
    (hheads : if T.horizontal then HorizHeadOK T.D T.A.side ∧ HorizHeadOK T.D T.B.side else VertHeadOK T.A.side ∧ VertHeadOK T.B.side) :
    ∃ V : ℝ → ℝ, (∀ x ≥ 0, T.V_full x = .ok (V x)) ∧ V 0 = 0 ∧ V T.h_max = T.V_total ∧ MonotoneOn V (Set.Ici 0) ∧ 0 ≤ T.h_max := by
  obtain ⟨A, B, -, b⟩ := tank_built h hD.ne'
  obtain ⟨cA, cB⟩ := complete h hD.ne'
  have hor := b.hor
  have top := b.top
  have vol := b.vol
  rw [← hor] at top vol
  cases hh : T.horizontal with
  | true =>
    rw [hh] at hheads top vol
    simp only [if_true] at hheads top
    obtain ⟨V, WA, WB, -, -, h3, h4, h5, h6⟩ := C60_horizontal hD hL hheads.1 hheads.2
    refine ⟨V, fun x hx => ?_, h4, ?_, h5, by rw [top]; exact hD.le⟩
    · unfold Tank.V_full
      rw [hh]
      exact (h3 x hx).1
    · rw [top]
      exact congrArg (fun p : ℝ × ℝ × ℝ × ℝ => p.1) (Except.ok.inj (h6.symm.trans vol))
  | false =>
    rw [hh] at hheads top vol
    simp only [Bool.false_eq_true, if_false] at hheads top
    obtain ⟨V, vA, vB, -, -, h3, h4, h5, -, h7⟩ := C60_vertical hD hL hheads.1 hheads.2 (tori_same cA cB)
    refine ⟨V, fun x hx => ?_, h4 0 le_rfl, ?_, h5.monotoneOn _, ?_⟩
    · unfold Tank.V_full
      rw [hh]
      exact h3 x
    · rw [top]
      exact congrArg (fun p : ℝ × ℝ × ℝ × ℝ => p.1) (Except.ok.inj (h7.symm.trans vol))
    · rw [top]
      have h1 := hheads.1.1
      have h2 := hheads.2.1
      have e1 : T.A.side.a = T.A.a.getD 0 := rfl
      have e2 : T.B.side.a = T.B.a.getD 0 := rfl
      rw [e1] at h1
      rw [e2] at h2
      linarith

/-- C113: the level found for a volume has that volume, whenever the root finder returns a root; a failure of the interpolation table falls back on the root
finder; unknown methods raise ValueError. -/
theorem C113_level (secant : (ℝ → Py ℝ) → ℝ → ℝ → ℝ → Py ℝ) (spline cheb vcheb : Tank → ℝ → Py ℝ) (T : Tank) (V : ℝ) :
    (∀ x, T.h_from_V secant spline cheb V "brenth" = .ok x → (∀ F g lo hi y, secant F g lo hi = .ok y → F y = .ok 0) → T.V_full x = .ok V ∧ T.V_from_h vcheb x = .ok V) ∧
    (∀ e, spline T V = .error e → T.h_from_V secant spline cheb V = T.h_from_V secant spline cheb V "brenth") ∧
    (∀ x, spline T V = .ok x → T.h_from_V secant spline cheb V = .ok x) ∧
    (∀ m, m ∉ ["spline", "chebyshev", "brenth"] → T.h_from_V secant spline cheb V m = .error .valueError) ∧
    (∀ h m, m ∉ ["full", "chebyshev"] → T.V_from_h vcheb h m = .error .valueError) ∧
    (∀ S h m, m ≠ "full" → T.SA_from_h S h m = .error .valueError) := by
  refine ⟨?_, ?_, ?_, ?_, ?_, ?_⟩
  · intro x hx hroot
    simp only [Tank.h_from_V, String.reduceEq, if_false, if_true, Tank.h_brenth] at hx
    have := hroot _ _ _ _ _ hx
    obtain ⟨v, hv, this⟩ := Py.bind_eq_ok.1 this
    have hV : v = V := sub_eq_zero.1 (Except.ok.inj this)
    rw [hV] at hv
    refine ⟨hv, ?_⟩
    simpa [Tank.V_from_h] using hv
  · intro e he
    simp [Tank.h_from_V, he]
  · intro x hx
    simp [Tank.h_from_V, hx]
  · intro m hm
    simp only [List.mem_cons, List.not_mem_nil, or_false, not_or] at hm
    simp [Tank.h_from_V, hm.1, hm.2.1, hm.2.2]
  · intro h m hm
    simp only [List.mem_cons, List.not_mem_nil, or_false, not_or] at hm
    simp [Tank.V_from_h, hm.1, hm.2]
  · intro S h m hm
    simp [Tank.SA_from_h, hm]

lemma defaults_idem (X : Head) : defaults (defaults X) = defaults X := by
  obtain ⟨hd, a, r, f, k⟩ := X
  unfold defaults
  simp only
  by_cases h1 : hd = none
  · subst h1
    cases a <;> simp
  · by_cases ht : hd = some "torispherical"
    · subst ht
      cases a <;> cases f <;> cases k <;> simp
    · cases a <;> cases r <;> simp [h1, ht]

lemma sides_not_same {A B A' B' : Head} (h : sides A B = .ok (A', B')) : A'.head ≠ some "same" ∧ B'.head ≠ some "same" := by
  unfold sides at h
  split_ifs at h with h1 h2 h3
  · obtain ⟨rfl, rfl⟩ : B = A' ∧ B = B' := by simpa using h
    exact ⟨h1.2, h1.2⟩
  · obtain ⟨rfl, rfl⟩ : A = A' ∧ A = B' := by simpa using h
    exact ⟨h2.2, h2.2⟩
  · obtain ⟨rfl, rfl⟩ : A = A' ∧ B = B' := by simpa using h
    constructor
    · intro hc
      by_cases hb : B.head = some "same"
      · exact h3 ⟨hc, hb⟩
      · exact h1 ⟨hc, hb⟩
    · intro hc
      by_cases ha : A.head = some "same"
      · exact h3 ⟨ha, hc⟩
      · exact h2 ⟨hc, ha⟩

lemma plain_defaults {D L LD : Option ℝ} {horizontal : Bool} {A B : Head} (hA : A.head ≠ some "same") (hB : B.head ≠ some "same") :
    plain D L LD horizontal (defaults A) (defaults B) = set_misc D L LD horizontal (defaults A) (defaults B) := by
  unfold plain
  rw [sides_plain (show (defaults A).head ≠ _ from hA) (show (defaults B).head ≠ _ from hB), Py.ok_bind]
  dsimp only
  rw [defaults_idem, defaults_idem]

lemma misc_lengths {D L : ℝ} {LD : Option ℝ} {horizontal : Bool} {A B : Head} {T : Tank} (h : set_misc (some D) (some L) LD horizontal A B = .ok T) : D ≠ 0 ∧ T.D = D ∧ T.L = L ∧ T.L_over_D = L / D := by
  have hD : D ≠ 0 := by
    intro h0
    unfold set_misc at h
    obtain ⟨p, hp, -⟩ := Py.bind_eq_ok.1 h
    simp only [lengths, h0, pdiv_zero, Py.error_bind] at hp
    cases hp
  have e : set_misc (some D) (some L) LD horizontal A B = set_misc (some D) (some L) none horizontal A B := by
    unfold set_misc
    simp only [lengths]
  rw [e, built_iff hD] at h
  exact ⟨hD, h.D_eq, h.L_eq, h.LD_eq⟩

/-- C113: a tank specified by its volume and one of `D`, `L` and `L_over_D` has that volume and that dimension, and is the tank that its lengths specify,
whenever the root finder returns a root. -/
theorem C113_volume {secant : (ℝ → Py ℝ) → ℝ → Py ℝ} (hroot : ∀ F g x, secant F g = .ok x → F x = .ok 0) (V : ℝ) (hV : V ≠ 0) (horizontal : Bool) (A B : Head) (T : Tank) :
    (∀ D, D ≠ 0 → tank secant ⟨some D, none, none, some V, horizontal, A, B⟩ = .ok T → T.V_total = V ∧ T.D = D ∧ tank secant ⟨some T.D, some T.L, none, none, horizontal, A, B⟩ = .ok T) ∧
    (∀ L, L ≠ 0 → tank secant ⟨none, some L, none, some V, horizontal, A, B⟩ = .ok T → T.V_total = V ∧ T.L = L ∧ tank secant ⟨some T.D, some T.L, none, none, horizontal, A, B⟩ = .ok T) ∧
    (∀ r, r ≠ 0 → tank secant ⟨none, none, some r, some V, horizontal, A, B⟩ = .ok T → T.V_total = V ∧ T.L_over_D = r ∧ tank secant ⟨some T.D, some T.L, none, none, horizontal, A, B⟩ = .ok T) := by
  have htV : truthy (some V) := ⟨V, rfl, hV⟩
  have hnone : ¬ truthy none := by rintro ⟨v, h, -⟩; cases h
  have finish : ∀ (D L : ℝ) (LD : Option ℝ) (A' B' : Head), sides A B = .ok (A', B') → V_solver_error V D L horizontal (defaults A') (defaults B') = .ok 0 →
      set_misc (some D) (some L) LD horizontal (defaults A') (defaults B') = .ok T → T.V_total = V ∧ T.D = D ∧ T.L = L ∧ T.L_over_D = L / D ∧ tank secant ⟨some T.D, some T.L, none, none, horizontal, A, B⟩ = .ok T := by
    intro D L LD A' B' hs herr h
    obtain ⟨hD, e1, e2, e3⟩ := misc_lengths h
    have h0 : set_misc (some D) (some L) none horizontal (defaults A') (defaults B') = .ok T := by
      rw [← h]; unfold set_misc; simp only [lengths]
    unfold V_solver_error at herr
    obtain ⟨hnA, hnB⟩ := sides_not_same hs
    rw [plain_defaults hnA hnB, h0, Py.ok_bind] at herr
    have : V - T.V_total = 0 := Except.ok.inj herr
    refine ⟨by linarith, e1, e2, e3, ?_⟩
    unfold tank
    simp only
    rw [hs, Py.ok_bind]
    dsimp only
    rw [if_neg hnone, e1, e2]
    exact h0
  refine ⟨?_, ?_, ?_⟩
  · intro D hD h
    have htD : truthy (some D) := ⟨D, rfl, hD⟩
    unfold tank at h
    simp only at h
    obtain ⟨⟨A', B'⟩, hs, h⟩ := Py.bind_eq_ok.1 h
    dsimp only at h
    rw [if_pos htV] at h
    obtain ⟨⟨D', L'⟩, hsol, h⟩ := Py.bind_eq_ok.1 h
    unfold solve_tank_for_V at hsol
    by_cases hr : rejected (some D) none none (defaults A') (defaults B') = true
    · rw [if_pos hr] at hsol; cases hsol
    rw [if_neg hr, if_pos htD] at hsol
    obtain ⟨x, hx, hsol⟩ := Py.bind_eq_ok.1 hsol
    obtain ⟨rfl, rfl⟩ : some D = D' ∧ some x = L' := by simpa [Py.pure_eq] using hsol
    unfold solve_L at hx
    obtain ⟨g, -, hx⟩ := Py.bind_eq_ok.1 hx
    have := hroot _ _ _ hx
    obtain ⟨r1, r2, -, -, r5⟩ := finish D x none A' B' hs this h
    exact ⟨r1, r2, r5⟩
  · intro L hL h
    have htL : truthy (some L) := ⟨L, rfl, hL⟩
    unfold tank at h
    simp only at h
    obtain ⟨⟨A', B'⟩, hs, h⟩ := Py.bind_eq_ok.1 h
    dsimp only at h
    rw [if_pos htV] at h
    obtain ⟨⟨D', L'⟩, hsol, h⟩ := Py.bind_eq_ok.1 h
    unfold solve_tank_for_V at hsol
    by_cases hr : rejected none (some L) none (defaults A') (defaults B') = true
    · rw [if_pos hr] at hsol; cases hsol
    rw [if_neg hr, if_neg hnone, if_pos htL] at hsol
    obtain ⟨x, hx, hsol⟩ := Py.bind_eq_ok.1 hsol
    obtain ⟨rfl, rfl⟩ : some x = D' ∧ some L = L' := by simpa [Py.pure_eq] using hsol
    unfold solve_D at hx
    obtain ⟨q, -, hx⟩ := Py.bind_eq_ok.1 hx
    obtain ⟨g, -, hx⟩ := Py.bind_eq_ok.1 hx
    have := hroot _ _ _ hx
    obtain ⟨r1, -, r3, -, r5⟩ := finish x L none A' B' hs this h
    exact ⟨r1, r3, r5⟩
  · intro r hr0 h
    unfold tank at h
    simp only at h
    obtain ⟨⟨A', B'⟩, hs, h⟩ := Py.bind_eq_ok.1 h
    dsimp only at h
    rw [if_pos htV] at h
    obtain ⟨⟨D', L'⟩, hsol, h⟩ := Py.bind_eq_ok.1 h
    unfold solve_tank_for_V at hsol
    by_cases hr : rejected none none (some r) (defaults A') (defaults B') = true
    · rw [if_pos hr] at hsol; cases hsol
    rw [if_neg hr, if_neg hnone, if_neg hnone] at hsol
    simp only at hsol
    obtain ⟨⟨D, L⟩, hx, hsol⟩ := Py.bind_eq_ok.1 hsol
    obtain ⟨rfl, rfl⟩ : some D = D' ∧ some L = L' := by simpa [Py.pure_eq] using hsol
    unfold solve_LD at hx
    obtain ⟨g, -, hx⟩ := Py.bind_eq_ok.1 hx
    obtain ⟨x, hx', hx⟩ := Py.bind_eq_ok.1 hx
    rw [pdiv_ok hr0, Py.ok_bind] at hx
    obtain ⟨rfl, rfl⟩ : x / r = D ∧ x = L := by simpa [Py.pure_eq] using hx
    have := hroot _ _ _ hx'
    unfold errorLD at this
    rw [pdiv_ok hr0, Py.ok_bind] at this
    obtain ⟨r1, -, -, r4, r5⟩ := finish (x / r) x (some r) A' B' hs this h
    have hx0 : x ≠ 0 := by
      intro h0
      have := (misc_lengths h).1
      rw [h0, zero_div] at this
      exact this rfl
    exact ⟨r1, by rw [r4, div_div_cancel₀ hx0], r5⟩

/-- C113: with a volume, giving two lengths, or a length together with the depth of a head, raises ValueError. -/
theorem C113_volume_errors (secant : (ℝ → Py ℝ) → ℝ → Py ℝ) (D L LD : Option ℝ) (V : ℝ) (hV : V ≠ 0) (horizontal : Bool) (A B : Head) (hA : A.head ≠ some "same") (hB : B.head ≠ some "same")
    (hbad : (truthy D ∧ truthy L) ∨ (truthy D ∧ truthy LD) ∨ (truthy L ∧ truthy LD) ∨ (truthy L ∧ truthy A.a) ∨ (truthy L ∧ truthy B.a)) :
    tank secant ⟨D, L, LD, some V, horizontal, A, B⟩ = .error .valueError := by
  have htV : truthy (some V) := ⟨V, rfl, hV⟩
  have hd : ∀ X : Head, truthy X.a → truthy (defaults X).a := by
    rintro X ⟨v, hv, h0⟩
    exact ⟨v, by simp [defaults, hv], h0⟩
  have hr : rejected D L LD (defaults A) (defaults B) = true := by
    unfold rejected
    simp only [decide_eq_true_eq]
    rcases hbad with h | h | h | h | h
    · exact Or.inr (Or.inl h)
    · exact Or.inr (Or.inr (Or.inl h))
    · exact Or.inr (Or.inr (Or.inr (Or.inl h)))
    · exact Or.inl ⟨h.1, Or.inl (hd A h.2)⟩
    · exact Or.inl ⟨h.1, Or.inr (hd B h.2)⟩
  unfold tank solve_tank_for_V
  simp only
  rw [sides_plain hA hB, Py.ok_bind]
  dsimp only
  rw [if_pos htV, Option.getD_some, if_pos hr, Py.error_bind]

/-- C113: without a diameter, or without a length, and no volume, TypeError is raised. -/
theorem C113_missing (secant : (ℝ → Py ℝ) → ℝ → Py ℝ) (D L : Option ℝ) (horizontal : Bool) (A B : Head) (hA : A.head ≠ some "same") (hB : B.head ≠ some "same") (h : D = none ∨ L = none) :
    tank secant ⟨D, L, none, none, horizontal, A, B⟩ = .error .typeError := by
  have hnone : ¬ truthy none := by rintro ⟨v, h, -⟩; cases h
  unfold tank set_misc
  simp only
  rw [sides_plain hA hB, Py.ok_bind]
  dsimp only
  rw [if_neg hnone]
  rcases h with rfl | rfl
  · cases L <;> rfl
  · cases D <;> rfl

/-- C113 (finding): a torispherical head given by its depth alone is rejected with ValueError. -/
theorem C113_tori_depth (secant : (ℝ → Py ℝ) → ℝ → Py ℝ) (D L : ℝ) (hD : D ≠ 0) (horizontal : Bool) (A B : Head) (hA : A.head = some "torispherical") (a : ℝ) (ha : A.a = some a)
    (hf : A.f = none ∨ A.k = none) (hB : B.head = none) : tank secant ⟨some D, some L, none, none, horizontal, A, B⟩ = .error .valueError := by
  have hnone : ¬ truthy none := by rintro ⟨v, h, -⟩; cases h
  have hA' : A.head ≠ some "same" := by rw [hA]; decide
  have hB' : B.head ≠ some "same" := by rw [hB]; simp
  have dA : ∃ A', depth D (defaults A) = .ok A' ∧ A'.head = some "torispherical" ∧ (A'.f = none ∨ A'.k = none) := by
    have e : defaults A = A := by
      obtain ⟨h1, h2, h3, h4, h5⟩ := A
      simp only at hA ha
      subst hA ha
      simp [defaults]
    rw [e]
    refine ⟨{ A with a := some a, ratio := some (a / D) }, ?_, hA, hf⟩
    rw [depth_ok hD]
    refine ⟨⟨some a, by simp [ratioDepth, ha], ?_⟩, rfl, rfl, rfl, rfl⟩
    unfold toriDepth
    rw [if_pos hA]
    rcases hf with h | h
    · rw [h]
    · rw [h]; cases A.f <;> rfl
  have dB : ∃ B', depth D (defaults B) = .ok B' ∧ B'.head = none := by
    obtain ⟨b, hb⟩ : ∃ b, (defaults B).a = some b := by
      cases h : B.a with
      | none => exact ⟨0, by simp [defaults, hB, h]⟩
      | some b => exact ⟨b, by simp [defaults, h]⟩
    refine ⟨{ defaults B with a := some b, ratio := some (b / D) }, ?_, hB⟩
    rw [depth_ok hD]
    refine ⟨⟨some b, by simp [ratioDepth, hb], ?_⟩, rfl, rfl, rfl, rfl⟩
    unfold toriDepth
    have : (defaults B).head = none := hB
    rw [this, if_neg (by simp)]
  obtain ⟨A', a1, a2, a3⟩ := dA
  obtain ⟨B', b1, b2⟩ := dB
  unfold tank set_misc
  simp only
  rw [sides_plain hA' hB', Py.ok_bind]
  dsimp only
  rw [if_neg hnone]
  simp only [lengths]
  rw [pdiv_ok hD, Py.ok_bind, Py.pure_eq, Py.ok_bind]
  rw [a1, Py.ok_bind, b1, Py.ok_bind]
  dsimp only
  have := (C60_rejects 0 D L horizontal A'.side B'.side (Or.inr (Or.inr (Or.inl ⟨a2, a3⟩)))).2
  rw [this, Py.error_bind]

/-- C113: `from_two_specs` returns a tank that meets both specifications at the level given (or at the top, if that is lower), whenever the root finder
returns a root. -/
theorem C113_two_specs (S : Surfaces) (fsolve : (ℝ → ℝ → Py (ℝ × ℝ)) → Py (ℝ × ℝ)) (hroot : ∀ F D r, fsolve F = .ok (D, r) → F D r = .ok (0, 0))
    (spec0 spec1 : ℝ) (name0 name1 : String) (h : Option ℝ) (horizontal : Bool) (A B : Head) (T : Tank) (hT : from_two_specs S fsolve spec0 spec1 name0 name1 h horizontal A B = .ok T) :
    ∃ x, h = some x ∧ specValue S T (min x T.h_max) name0 = .ok spec0 ∧ specValue S T (min x T.h_max) name1 = .ok spec1 := by
  unfold from_two_specs at hT
  obtain ⟨⟨D, r⟩, hs, hT⟩ := Py.bind_eq_ok.1 hT
  have := hroot _ _ _ hs
  unfold tank_from_two_specs_err at this
  dsimp only at hT
  rw [hT, Py.ok_bind] at this
  cases h with
  | none => simp only [Py.error_bind] at this; cases this
  | some x =>
    simp only [Py.ok_bind] at this
    obtain ⟨v0, h0, this⟩ := Py.bind_eq_ok.1 this
    obtain ⟨v1, h1, this⟩ := Py.bind_eq_ok.1 this
    obtain ⟨e0, e1⟩ : v0 - spec0 = 0 ∧ v1 - spec1 = 0 := by simpa [Py.pure_eq] using this
    rw [sub_eq_zero.1 e0] at h0
    rw [sub_eq_zero.1 e1] at h1
    exact ⟨x, rfl, h0, h1⟩

/-- C113 (finding): without a level the objective of `from_two_specs` fails for every tank, even for specifications that need none, such as the total volume and area. -/
theorem C113_two_specs_level (S : Surfaces) (D r spec0 spec1 : ℝ) (name0 name1 : String) (horizontal : Bool) (A B : Head) :
    (∀ T, plain (some D) none (some r) horizontal A B = .ok T → tank_from_two_specs_err S D r spec0 spec1 name0 name1 none horizontal A B = .error .typeError) ∧
    ∃ e, tank_from_two_specs_err S D r spec0 spec1 name0 name1 none horizontal A B = .error e := by
  have h1 : ∀ T, plain (some D) none (some r) horizontal A B = .ok T → tank_from_two_specs_err S D r spec0 spec1 name0 name1 none horizontal A B = .error .typeError := by
    intro T h
    unfold tank_from_two_specs_err
    rw [h, Py.ok_bind]
    simp only [Py.error_bind]
  refine ⟨h1, ?_⟩
  cases h : plain (some D) none (some r) horizontal A B with
  | ok T => exact ⟨_, h1 T h⟩
  | error e =>
    refine ⟨e, ?_⟩
    unfold tank_from_two_specs_err
    rw [h, Py.error_bind]

/-- C113: within the straight part of a vertical tank the cross-sectional area is that of the cylinder. (Finding: it is 0 at the bottom and the top of every
tank, flat ends included.) -/
theorem C113_cross_section {secant : (ℝ → Py ℝ) → ℝ → Py ℝ} {s : Spec} {T : Tank} (h : tank secant s = .ok T) (hD : 0 < T.D) (hL : 0 ≤ T.L) (hv : T.horizontal = false)
    (hA : VertHeadOK T.A.side) (hB : VertHeadOK T.B.side) :
    T.A_cross_sectional 0 = .ok 0 ∧ T.A_cross_sectional T.h_max = .ok 0 ∧
    (∀ x, 0 < x → x ≠ T.h_max → T.A.a.getD 0 ≤ x * (1 - 1e-7) → x * (1 + 1e-7) ≤ T.A.a.getD 0 + T.L → T.A_cross_sectional x = .ok (π / 4 * T.D ^ 2)) := by
  refine ⟨by simp [Tank.A_cross_sectional], by simp [Tank.A_cross_sectional], ?_⟩
  intro x hx hne h1 h2
  obtain ⟨V, vA, vB, -, -, h3, -, -, h6, -⟩ := C60_vertical hD hL hA hB (tori_same (complete h hD.ne').1 (complete h hD.ne').2)
  have hV : T.V_full = fun y => .ok (V y) := by
    funext y
    unfold Tank.V_full
    rw [hv]
    exact h3 y
  unfold Tank.A_cross_sectional
  rw [if_neg (by rintro (h | h) <;> [exact hne h; exact hx.ne' h]), hV]
  have hdx : (1e-7 : ℝ) * x ≠ 0 := by positivity
  rw [FiniteDiff.derivative_cached _ V x (1e-7 * x) hdx (n := 1) (order := 3) (w := [-0.5, 0, 0.5]) (by decide +kernel)]
  congr 1
  have e1 := h6 (x * (1 - 1e-7)) h1 (by
    show _ ≤ T.A.a.getD 0 + _
    nlinarith)
  have e2 := h6 (x * (1 + 1e-7)) (by
    show T.A.a.getD 0 ≤ _
    nlinarith) h2
  simp only [FiniteDiff.wsum, List.map]
  have p1 : x + ((-((3 / 2 : ℕ) : ℤ) : ℤ) : ℝ) * (1e-7 * x) = x * (1 - 1e-7) := by norm_num; ring
  have p2 : x + ((-((3 / 2 : ℕ) : ℤ) + 1 + 1 : ℤ) : ℝ) * (1e-7 * x) = x * (1 + 1e-7) := by norm_num; ring
  rw [p1, p2, e1, e2]
  push_cast
  field_simp
  ring

/-- a flat-ended vertical tank of diameter 2 and length 3 is built -/
example (secant : (ℝ → Py ℝ) → ℝ → Py ℝ) : ∃ T, tank secant ⟨some 2, some 3, none, none, false, ⟨none, none, none, none, none⟩, ⟨none, none, none, none, none⟩⟩ = .ok T ∧ T.D = 2 ∧ T.h_max = 3 := by
  have hnone : ¬ truthy none := by rintro ⟨v, h, -⟩; cases h
  refine ⟨⟨2, 3, 3 / 2, 2 / 2, false, ⟨none, some 0, some (0 / 2), none, none⟩, ⟨none, some 0, some (0 / 2), none, none⟩, 3 + 0 + 0, 0.25 * π * 2 * 2 * 3 + 0 + 0, 0, 0, 0.25 * π * 2 * 2 * 3,
    0.25 * π * 2 * 2 + 0.25 * π * 2 * 2 + π * 2 * 3, 0.25 * π * 2 * 2, 0.25 * π * 2 * 2, π * 2 * 3, 0.25 * π * 2 * 2 - 0.25 * π * 2 * 2, 0.25 * π * 2 * 2 - 0.25 * π * 2 * 2⟩, ?_, rfl, by norm_num⟩
  unfold tank
  simp only
  rw [sides_plain (by simp) (by simp), Py.ok_bind]
  dsimp only
  rw [if_neg hnone, built_iff (by norm_num)]
  refine ⟨rfl, rfl, rfl, rfl, rfl, ⟨rfl, rfl, rfl⟩, ⟨rfl, rfl, rfl⟩, ?_, ?_, rfl, rfl, rfl, ?_, ?_, rfl, rfl⟩
  · exact ⟨some 0, by simp [defaults, ratioDepth], by simp [defaults, toriDepth]⟩
  · exact ⟨some 0, by simp [defaults, ratioDepth], by simp [defaults, toriDepth]⟩
  · simp [V_tank, V_tank_vertical, setHeads, checkSide, sideFK, Head.side, Py.ok_bind, Py.pure_eq]
  · simp [SA_tank, SA_head, defaults, Py.ok_bind, Py.pure_eq]

end Verif.TankClass
