import Verif.Model.Filters
import Verif.Lemmas.Tactic
import Verif.Lemmas.InterpTable
import Verif.Props.Splines
import Mathlib.Analysis.SpecialFunctions.Pow.Real
import Mathlib.Analysis.SpecialFunctions.Trigonometric.Bounds
import Mathlib.Analysis.Real.Pi.Bounds

/-! C99: loss coefficients of screens, nets and grills. -/

open Real Verif.Seq Verif.Splines

noncomputable section

namespace Verif.Filters
open Verif.Translate (idx_ok)

theorem gammas_total (a : ℝ) : ∃ y, interp a round_thetas round_gammas none none false = .ok y ∧ 0.09 ≤ y ∧ y ≤ 1 := by
  have hs : round_thetas.Pairwise (· < ·) := by unfold round_thetas; norm_num
  obtain ⟨y, h⟩ := interp_total (dy := round_gammas) a hs rfl (by simp [round_thetas]) none none false
  exact ⟨y, h, interp_bounds (dy := round_gammas) a hs rfl (by simp [round_thetas]) (by unfold round_gammas; norm_num) h⟩

theorem gammas_antitone {a b x y : ℝ} (hab : a ≤ b) (h : interp a round_thetas round_gammas none none false = .ok x)
    (h' : interp b round_thetas round_gammas none none false = .ok y) : y ≤ x :=
  interp_antitone (dx := round_thetas) (dy := round_gammas) (by unfold round_thetas; norm_num) (by unfold round_gammas; norm_num) rfl (by simp [round_thetas]) hab h h'

theorem cos_sq_bounds {a : ℝ} (h0 : 0 ≤ a) (h1 : a ≤ 45) : 0.5 ≤ cos (a * (π / 180)) ^ 2 ∧ cos (a * (π / 180)) ^ 2 ≤ 1 := by
  have hp := pi_pos
  refine ⟨?_, cos_sq_le_one _⟩
  rw [cos_sq]
  have : 0 ≤ cos (2 * (a * (π / 180))) := cos_nonneg_of_neg_pi_div_two_le_of_le (by nlinarith) (by nlinarith)
  linarith

theorem cos_sq_anti {a b : ℝ} (h0 : 0 ≤ a) (hab : a ≤ b) (h1 : b ≤ 45) : cos (b * (π / 180)) ^ 2 ≤ cos (a * (π / 180)) ^ 2 := by
  have hp := pi_pos
  have h : cos (b * (π / 180)) ≤ cos (a * (π / 180)) := cos_le_cos_of_nonneg_of_le_pi (by positivity) (by nlinarith) (by gcongr)
  have : 0 ≤ cos (b * (π / 180)) := cos_nonneg_of_neg_pi_div_two_le_of_le (by nlinarith) (by nlinarith)
  gcongr

/-- C99: the angle factors of screens and of nets: one for flow straight on (and for a missing angle), between 0.09 and 1 for every angle of incidence, falling with
the angle up to 45 degrees and beyond -/
theorem C99_angle : (screenAngle none = .ok 1 ∧ meshAngle none = .ok 1 ∧ screenAngle (some 0) = .ok 1 ∧ meshAngle (some 0) = .ok 1) ∧
    (∀ a : ℝ, 0 ≤ a → ∃ f g, screenAngle (some a) = .ok f ∧ meshAngle (some a) = .ok g ∧ 0.09 ≤ f ∧ f ≤ 1 ∧ 0.09 ≤ g ∧ g ≤ 1 ∧ (a ≠ 45 → f = g)) ∧
    (∀ {a b f g : ℝ}, 0 ≤ a → a ≤ b → b ≤ 45 ∨ 45 < a → screenAngle (some a) = .ok f → screenAngle (some b) = .ok g → g ≤ f) ∧
    (∀ {a b f g : ℝ}, 0 ≤ a → a ≤ b → b < 45 ∨ 45 ≤ a → meshAngle (some a) = .ok f → meshAngle (some b) = .ok g → g ≤ f) := by
  refine ⟨⟨rfl, rfl, by simp [screenAngle], by simp [meshAngle]⟩, fun a ha => ?_, fun {a b f g} ha hab h hf hg => ?_, fun {a b f g} ha hab h hf hg => ?_⟩
  · obtain ⟨y, e, y1, y2⟩ := gammas_total a
    by_cases h1 : a ≤ 45
    · have := cos_sq_bounds ha h1
      by_cases h2 : a < 45
      · refine ⟨cos (a * (π / 180)) ^ 2, cos (a * (π / 180)) ^ 2, by simp only [screenAngle, if_pos h1, sq], by simp only [meshAngle, if_pos h2], ?_, this.2, ?_, this.2, fun _ => rfl⟩ <;>
          linarith
      · refine ⟨cos (a * (π / 180)) ^ 2, y, by simp only [screenAngle, if_pos h1, sq], by simp only [meshAngle, if_neg h2, e], by linarith, this.2, y1, y2, fun h => ?_⟩
        exact absurd (le_antisymm h1 (not_lt.mp h2)) h
    · exact ⟨y, y, by simp only [screenAngle, if_neg h1, e], by simp only [meshAngle, if_neg (show ¬ a < 45 by linarith), e], y1, y2, y1, y2, fun _ => rfl⟩
  · rcases h with h | h
    · simp only [screenAngle, if_pos h, if_pos (hab.trans h), ← sq] at hf hg
      rw [← Except.ok.inj hf, ← Except.ok.inj hg]
      exact cos_sq_anti ha hab h
    · simp only [screenAngle, if_neg (show ¬ a ≤ 45 by linarith), if_neg (show ¬ b ≤ 45 by linarith)] at hf hg
      exact gammas_antitone hab hf hg
  · rcases h with h | h
    · simp only [meshAngle, if_pos h, if_pos (hab.trans_lt h)] at hf hg
      rw [← Except.ok.inj hf, ← Except.ok.inj hg]
      exact cos_sq_anti ha hab h.le
    · simp only [meshAngle, if_neg (show ¬ a < 45 by linarith), if_neg (show ¬ b < 45 by linarith)] at hf hg
      exact gammas_antitone hab hf hg

theorem gammas_at {a : ℝ} (h1 : 40 ≤ a) (h2 : a ≤ 50) : interp a round_thetas round_gammas none none false = .ok (0.59 - 0.014 * (a - 40)) := by
  rw [C21_interp_inside a round_thetas round_gammas (by unfold round_thetas; norm_num) rfl none none false 4 (by simp [round_thetas]) (by simpa [round_thetas] using h1)
    (by simpa [round_thetas] using h2)]
  congr 1
  simp only [round_thetas, round_gammas, List.getD_cons_succ, List.getD_cons_zero]
  ring

/-- C99: finding: where the angle factor passes from the cosine to the table, at 45 degrees, it rises: a screen loses more at 46 than at 45 degrees, a net more
at 45 than at 44 -/
theorem C99_angle_jump : (∃ f g, screenAngle (some 45) = .ok f ∧ screenAngle (some 46) = .ok g ∧ f < g) ∧
    ∃ f g, meshAngle (some 44) = .ok f ∧ meshAngle (some 45) = .ok g ∧ f < g := by
  constructor
  · refine ⟨1 / 2, 0.59 - 0.014 * (46 - 40), ?_, ?_, by norm_num⟩
    · simp only [screenAngle, le_refl, if_true]
      rw [show (45 * (π / 180) : ℝ) = π / 4 by ring, cos_pi_div_four]
      congr 1
      have := mul_self_sqrt (show (0:ℝ) ≤ 2 by norm_num)
      linarith
    · simp only [screenAngle, if_neg (show ¬ (46:ℝ) ≤ 45 by norm_num)]
      exact gammas_at (by norm_num) (by norm_num)
  · refine ⟨_, 0.59 - 0.014 * (45 - 40), by simp only [meshAngle, if_pos (show (44:ℝ) < 45 by norm_num)]; rfl, ?_, ?_⟩
    · simp only [meshAngle, if_neg (lt_irrefl (45:ℝ))]
      exact gammas_at (by norm_num) (by norm_num)
    · rw [cos_sq, show 2 * (44 * (π / 180)) = π / 2 - π / 90 by ring, cos_pi_div_two_sub]
      have h1 := sin_lt (show 0 < π / 90 by positivity)
      have h2 := pi_lt_d2
      norm_num at *; linarith

/-! ### round edged screens -/

theorem betas_total (Re : ℝ) : ∃ y, interp Re round_Res round_betas none none false = .ok y ∧ 0.52 ≤ y ∧ y ≤ 1.3 := by
  have hs : round_Res.Pairwise (· < ·) := by unfold round_Res; norm_num
  obtain ⟨y, h⟩ := interp_total (dy := round_betas) Re hs rfl (by simp [round_Res]) none none false
  exact ⟨y, h, interp_bounds (dy := round_betas) Re hs rfl (by simp [round_Res]) (by unfold round_betas; norm_num) h⟩

/-- an angle of incidence: none given, or not negative -/
def Incidence (angle : Option ℝ) : Prop := ∀ a, angle = some a → 0 ≤ a

theorem screenAngle_total {angle : Option ℝ} (h : Incidence angle) : ∃ f, screenAngle angle = .ok f ∧ 0.09 ≤ f ∧ f ≤ 1 := by
  cases angle with
  | none => exact ⟨1, rfl, by norm_num, le_refl _⟩
  | some a => obtain ⟨f, g, h1, -, h3, h4, -⟩ := C99_angle.2.1 a (h a rfl); exact ⟨f, h1, h3, h4⟩

theorem meshAngle_total {angle : Option ℝ} (h : Incidence angle) : ∃ f, meshAngle angle = .ok f ∧ 0.09 ≤ f ∧ f ≤ 1 := by
  cases angle with
  | none => exact ⟨1, rfl, by norm_num, le_refl _⟩
  | some a => obtain ⟨f, g, -, h1, -, -, h3, h4, -⟩ := C99_angle.2.1 a (h a rfl); exact ⟨g, h1, h3, h4⟩

/-- C99: a round-edged screen loses nothing when fully open, its loss is positive and strictly smaller the more open it is, never rises with the Reynolds number,
and lies between 0.0468 and 1.3 times `(1-α²)/α²`; a screen without openings is a ZeroDivisionError -/
theorem C99_screen {α Re : ℝ} {angle : Option ℝ} (h0 : 0 < α) (h1 : α < 1) (ha : Incidence angle) :
    ∃ K, round_edge_screen α Re angle = .ok K ∧ 0 < K ∧ 0.0468 * ((1 - α ^ 2) / α ^ 2) ≤ K ∧ K ≤ 1.3 * ((1 - α ^ 2) / α ^ 2) ∧
      (∀ α' > α, ∃ K', round_edge_screen α' Re angle = .ok K' ∧ K' < K) ∧ (∀ Re' ≥ Re, ∃ K', round_edge_screen α Re' angle = .ok K' ∧ K' ≤ K) ∧
      round_edge_screen 1 Re angle = .ok 0 ∧ round_edge_screen 0 Re angle = .error .zeroDivisionError := by
  obtain ⟨f, ef, f1, f2⟩ := screenAngle_total ha
  have F : ∀ {a R b : ℝ}, a ≠ 0 → interp R round_Res round_betas none none false = .ok b → round_edge_screen a R angle = .ok (b * (1 - a * a) / (a * a) * f) := by
    intro a R b ha hb
    simp only [round_edge_screen, hb, Py.ok_bind, pdiv_ok (mul_ne_zero ha ha), ef, Py.pure_eq]
  obtain ⟨b, hb, b1, b2⟩ := betas_total Re
  have q : 0 < 1 - α * α := by nlinarith
  have q2 : 0 < α * α := by positivity
  have fp : 0 < f := by linarith
  have bp : 0 < b := by linarith
  have e : b * (1 - α * α) / (α * α) * f = b * f * ((1 - α ^ 2) / α ^ 2) := by rw [sq]; ring
  have r : 0 < (1 - α ^ 2) / α ^ 2 := by rw [sq]; positivity
  refine ⟨_, F h0.ne' hb, by positivity, ?_, ?_, fun α' h => ⟨_, F (h0.trans h).ne' hb, ?_⟩, fun R h => ?_, ?_, ?_⟩
  · rw [e]
    have : 0.0468 ≤ b * f := by nlinarith
    gcongr
  · rw [e]
    have : b * f ≤ 1.3 := by nlinarith
    gcongr
  · have a0 := h0.trans h
    have e2 : ∀ x : ℝ, 0 < x → b * (1 - x * x) / (x * x) = b * (1 / (x * x)) - b := fun x hx => by field_simp
    rw [e2 _ a0, e2 _ h0]
    have : 1 / (α' * α') < 1 / (α * α) := by
      have : α * α < α' * α' := by nlinarith
      gcongr
    have : b * (1 / (α' * α')) < b * (1 / (α * α)) := by gcongr
    nlinarith
  · obtain ⟨b', hb', -⟩ := betas_total R
    refine ⟨_, F h0.ne' hb', ?_⟩
    have : b' ≤ b := interp_antitone (dx := round_Res) (dy := round_betas) (by unfold round_Res; norm_num) (by unfold round_betas; norm_num) rfl (by simp [round_Res]) h hb hb'
    gcongr
  · rw [F one_ne_zero hb]; congr 1; ring
  · simp only [round_edge_screen, hb, Py.ok_bind, mul_zero, pdiv_zero, Py.error_bind]

example : ∃ K, round_edge_screen 0.5 100 (some 45) = .ok K ∧ 0 < K :=
  let ⟨K, h, h', _⟩ := C99_screen (α := 0.5) (Re := 100) (angle := some 45) (by norm_num) (by norm_num) (by rintro a ⟨⟩; norm_num)
  ⟨K, h, h'⟩

/-! ### nets and open meshes -/

/-- the four kinds of net, with the constants of the published fits -/
def mesh (s : String) (a b : ℝ) : Prop :=
  s = "round bar screen" ∧ a = 0.95 ∧ b = 0.2 ∨ s = "diamond pattern wire" ∧ a = 0.67 ∧ b = 1.3 ∨ s = "knotted net" ∧ a = 0.7 ∧ b = 4.9 ∨
    s = "knotless net" ∧ a = 0.72 ∧ b = 2.1

/-- C99: the loss of an open mesh at normal flow is `(a + b(1-α))(1-α)` with the constants of the kind of mesh; it is positive, strictly smaller the more open the
mesh, zero when fully open, and reduced by the angle factor; another kind raises ValueError -/
theorem C99_mesh {α a b : ℝ} {s : String} {angle : Option ℝ} (hs : mesh s a b) (h1 : α < 1) (ha : Incidence angle) :
    round_edge_open_mesh α s none = .ok ((a + b * (1 - α)) * (1 - α)) ∧ round_edge_open_mesh 1 s angle = .ok 0 ∧
    ∃ K, round_edge_open_mesh α s angle = .ok K ∧ 0 < K ∧ K ≤ (a + b * (1 - α)) * (1 - α) ∧
      (∀ α' > α, α' ≤ 1 → ∃ K', round_edge_open_mesh α' s angle = .ok K' ∧ K' < K) := by
  have ab : 0 < a ∧ 0 < b := by
    rcases hs with ⟨-, rfl, rfl⟩ | ⟨-, rfl, rfl⟩ | ⟨-, rfl, rfl⟩ | ⟨-, rfl, rfl⟩ <;> norm_num
  obtain ⟨a0, b0⟩ := ab
  have m : ∀ x, meshFactor s x = .ok (a + b * x) := by
    intro x
    rcases hs with ⟨rfl, rfl, rfl⟩ | ⟨rfl, rfl, rfl⟩ | ⟨rfl, rfl, rfl⟩ | ⟨rfl, rfl, rfl⟩ <;> simp [meshFactor] <;> norm_num
  have F : ∀ {x f : ℝ} {an : Option ℝ}, meshAngle an = .ok f → round_edge_open_mesh x s an = .ok ((a + b * (1 - x)) * (1 - x) * f) := by
    intro x f an h
    simp only [round_edge_open_mesh, m, Py.ok_bind, h, Py.pure_eq]
  obtain ⟨f, ef, f1, f2⟩ := meshAngle_total ha
  have q : 0 < 1 - α := by linarith
  have fp : 0 < f := by linarith
  refine ⟨by rw [F (f := 1) rfl, mul_one], by rw [F ef]; congr 1; ring, _, F ef, by positivity, ?_, fun x hx hx1 => ⟨_, F ef, ?_⟩⟩
  · exact mul_le_of_le_one_right (by positivity) f2
  · have : (a + b * (1 - x)) * (1 - x) < (a + b * (1 - α)) * (1 - α) := by
      have h3 : 0 ≤ 1 - x := by linarith
      have h4 : a + b * (1 - x) < a + b * (1 - α) := by nlinarith
      nlinarith
    gcongr

example : ∃ K, round_edge_open_mesh 0.96 "diamond pattern wire" (some 33) = .ok K ∧ 0 < K :=
  let ⟨_, _, K, h, h', _⟩ := C99_mesh (α := 0.96) (angle := some 33) (show mesh "diamond pattern wire" 0.67 1.3 by simp [mesh]) (by norm_num) (by rintro a ⟨⟩; norm_num)
  ⟨K, h, h'⟩

theorem C99_mesh_unknown {α : ℝ} {s : String} {angle : Option ℝ} (hs : ∀ a b, ¬ mesh s a b) : round_edge_open_mesh α s angle = .error .valueError := by
  have e : ∀ x, meshFactor s x = .error .valueError := by
    intro x
    unfold meshFactor
    rw [if_neg, if_neg, if_neg, if_neg]
    · rintro rfl; exact hs 0.72 2.1 (by simp [mesh])
    · rintro rfl; exact hs 0.7 4.9 (by simp [mesh])
    · rintro rfl; exact hs 0.67 1.3 (by simp [mesh])
    · rintro rfl; exact hs 0.95 0.2 (by simp [mesh])
  simp only [round_edge_open_mesh, e, Py.error_bind]

example : round_edge_open_mesh 0.5 "square net" none = .error .valueError := C99_mesh_unknown (by intro a b; simp [mesh])

/-! ### square edged screens and grills -/

/-- C99: the loss of a square-edged screen passes through the 24 tabulated points, never rises with the open fraction, is zero when fully open and at most 1024000 -/
theorem C99_square_screen : (∀ i < 24, square_edge_screen (square_alphas.getD i 0) = .ok (square_Ks.getD i 0)) ∧
    (∀ α : ℝ, ∃ K, square_edge_screen α = .ok K ∧ 0 ≤ K ∧ K ≤ 1024000 ∧ ∀ α' ≥ α, ∃ K', square_edge_screen α' = .ok K' ∧ K' ≤ K) ∧
    (∀ α : ℝ, 1 ≤ α → square_edge_screen α = .ok 0) := by
  have hs : square_alphas.Pairwise (· < ·) := by unfold square_alphas; norm_num
  have hd : square_Ks.Pairwise (· ≥ ·) := by unfold square_Ks; norm_num
  have hn : 2 ≤ square_alphas.length := by simp [square_alphas]
  have hl : square_alphas.length = square_Ks.length := by simp [square_alphas, square_Ks]
  have h24 : square_alphas.length = 24 := by simp [square_alphas]
  have T := fun α : ℝ => interp_total (dy := square_Ks) α hs hl hn none none false
  have B : ∀ {α y : ℝ}, interp α square_alphas square_Ks none none false = .ok y → 0 ≤ y ∧ y ≤ 1024000 := fun h =>
    interp_bounds _ hs hl hn (by unfold square_Ks; norm_num) h
  have N : ∀ i < 24, square_edge_screen (square_alphas.getD i 0) = .ok (square_Ks.getD i 0) := by
    intro i hi
    unfold square_edge_screen
    by_cases h : i = 23
    · subst h
      rw [C21_interp_inside _ square_alphas square_Ks hs hl none none false 22 (by simp [square_alphas]) (by norm_num [square_alphas]) (by norm_num [square_alphas])]
      congr 1
      norm_num [square_alphas, square_Ks]
    · rw [C21_interp_inside _ square_alphas square_Ks hs hl none none false i (by omega) (le_refl _) (incr_getD hs (Nat.lt_succ_self i) (by omega)).le, sub_self, zero_div,
        mul_zero, add_zero]
  refine ⟨N, fun α => ?_, fun α h => ?_⟩
  · obtain ⟨y, e⟩ := T α
    refine ⟨y, e, (B e).1, (B e).2, fun x hx => ?_⟩
    obtain ⟨z, e'⟩ := T x
    exact ⟨z, e', interp_antitone hs hd hl hn hx e e'⟩
  · rcases h.eq_or_lt with rfl | h
    · have := N 23 (by norm_num)
      simpa [square_alphas, square_Ks] using this
    · have := (C21_interp_outside α square_alphas square_Ks hs hl hn none none false).2 (by simpa [square_alphas] using h)
      unfold square_edge_screen
      rw [this]
      simp [square_alphas, square_Ks]

/-- C99: the values of the loss of a square-edged screen at the tabulated open fractions. -/
theorem C99_square_values : ∀ p ∈ ([(0.0015625, 1024000), (0.003125, 256000), (0.00625, 64000), (0.0125, 16000), (0.025, 4000), (0.05, 1000), (0.1, 250), (0.15, 85), (0.2, 52), (0.25, 30),
    (0.3, 17), (0.35, 11), (0.4, 7.7), (0.45, 5.5), (0.5, 3.8), (0.55, 2.8), (0.6, 2), (0.65, 1.5), (0.7, 1.1), (0.75, 0.78), (0.8, 0.53), (0.85, 0.35), (0.9, 0.08), (1, 0)] : List (ℝ × ℝ)),
    square_edge_screen p.1 = .ok p.2 := by
  intro p hp
  obtain ⟨i, hi, rfl⟩ := List.mem_iff_getElem.1 hp
  have h := C99_square_screen.1 i hi
  simp only [List.length_cons, List.length_nil] at hi
  interval_cases i <;> simpa [square_alphas, square_Ks] using h

/-- C99: the loss of a square-edged grill is `(0.5(1-α) + (1-α²))/α²`, plus the friction `fd l/(Dh α²)` exactly when length, hydraulic diameter and friction factor are
all given and the grill is longer than 50 hydraulic diameters; it is zero for a fully open thin grill and strictly smaller the more open the grill -/
theorem C99_square_grill {α : ℝ} (h0 : 0 < α) (h1 : α < 1) :
    square_edge_grill α none none none = .ok ((0.5 * (1 - α) + (1 - α ^ 2)) / α ^ 2) ∧ square_edge_grill 1 none none none = .ok 0 ∧
    (∀ {l Dh fd : ℝ}, l ≤ 50 * Dh → square_edge_grill α (some l) (some Dh) (some fd) = square_edge_grill α none none none) ∧
    (∀ {l Dh fd : ℝ}, 0 < Dh → 50 * Dh < l →
      square_edge_grill α (some l) (some Dh) (some fd) = .ok ((0.5 * (1 - α) + (1 - α ^ 2)) / α ^ 2 + fd * l / (Dh * α ^ 2))) ∧
    (∀ {l Dh fd : Option ℝ}, l = none ∨ Dh = none ∨ fd = none → square_edge_grill α l Dh fd = square_edge_grill α none none none) ∧
    (∀ {α' l Dh fd K K' : ℝ}, 0 < Dh → 0 ≤ fd → 0 ≤ l → α < α' → square_edge_grill α (some l) (some Dh) (some fd) = .ok K →
      square_edge_grill α' (some l) (some Dh) (some fd) = .ok K' → α' ≤ 1 → K' < K) := by
  have F : ∀ {a f : ℝ} {l Dh fd : Option ℝ}, a ≠ 0 → grillFriction l Dh fd = .ok f → square_edge_grill a l Dh fd = .ok ((0.5 * (1 - a) + (1 - a * a) + f) / (a * a)) := by
    intro a f l Dh fd ha h
    unfold square_edge_grill
    rw [h, Py.ok_bind, pdiv_ok (mul_ne_zero ha ha)]
  refine ⟨by rw [F h0.ne' rfl, add_zero, sq], by rw [F one_ne_zero rfl]; norm_num, fun {l Dh fd} h => ?_, fun {l Dh fd} hD h => ?_, fun {l Dh fd} h => ?_,
    fun {α' l Dh fd K K'} hD hf hl ha h h' h1' => ?_⟩
  · rw [F (f := 0) h0.ne' (by simp only [grillFriction, gt_iff_lt, if_neg (not_lt.mpr h)]), F (f := 0) h0.ne' rfl]
  · rw [F (f := fd * l / Dh) h0.ne' (by simp only [grillFriction, gt_iff_lt, if_pos h, pdiv_ok hD.ne'])]
    congr 1; field_simp
  · have e : grillFriction l Dh fd = .ok 0 := by
      rcases h with rfl | rfl | rfl
      · simp only [grillFriction]
      · cases l <;> simp only [grillFriction]
      · cases l <;> cases Dh <;> simp only [grillFriction]
    rw [F h0.ne' e, F (f := 0) h0.ne' rfl]
  · obtain ⟨f, ef, f0⟩ : ∃ f, grillFriction (some l) (some Dh) (some fd) = .ok f ∧ 0 ≤ f := by
      simp only [grillFriction]
      split_ifs
      · exact ⟨_, pdiv_ok hD.ne', by positivity⟩
      · exact ⟨0, rfl, le_refl _⟩
    have a0 := h0.trans ha
    rw [F h0.ne' ef] at h
    rw [F a0.ne' ef] at h'
    rw [← Except.ok.inj h, ← Except.ok.inj h']
    have : α * α < α' * α' := by nlinarith
    have n : 0 ≤ 0.5 * (1 - α') + (1 - α' * α') + f := by nlinarith
    apply div_lt_div₀ _ this.le _ (by positivity)
    · linarith
    · nlinarith

example : square_edge_grill 0.45 none none none = .ok ((0.5 * (1 - 0.45) + (1 - 0.45 ^ 2)) / 0.45 ^ 2) := (C99_square_grill (by norm_num) (by norm_num)).1

/-! ### rounded grills -/

/-- the three pieces of the fitted curve -/
def piece1 (x : ℝ) : ℝ := 56107142857142843 / 6250000000000000 - 2593749999999999 / 78125000000000 * x + 6214285714285711 / 187500000000000 * x ^ 2
def piece2 (x : ℝ) : ℝ := 388571428571429267 / 100000000000000000 - 26428571428571499 / 2500000000000000 * x + 2000000000000007 / 250000000000000 * x ^ 2
def piece3 (x : ℝ) : ℝ := 41999999999999779 / 37500000000000000 - 1928571428571359 / 3750000000000000 * x - 214285714285717 / 187500000000000 * x ^ 2

theorem grill_knots : Knots grills_rounded_t 2 5 where
  len := rfl
  enough := by norm_num
  mono := by
    refine monotone_nat_of_le_succ fun n => ?_
    unfold knots
    by_cases h : n < 7
    · interval_cases n <;> norm_num [grills_rounded_t]
    · have hl : grills_rounded_t.length = 8 := rfl
      rw [hl, min_eq_right (by omega), min_eq_right (by omega)]
  first := by norm_num [grills_rounded_t]
  last := by norm_num [grills_rounded_t]

theorem grill_splev (x : ℝ) : py_splev x grills_rounded_t grills_rounded_c 2 0 = .ok (if x < 0.45 then piece1 x else if x < 0.55 then piece2 x else piece3 x) := by
  have hl : grills_rounded_t.length = 8 := by simp [grills_rounded_t]
  have g : ∀ i < 8, knots grills_rounded_t i = grills_rounded_t.getD i 0 := fun i hi => knots_lt (by omega)
  obtain ⟨l, e, l1, l2, l3, l4⟩ := findSpan_spec grills_rounded_t x (nk1 := 5) (by omega) 9 3 (by omega) (by omega)
  obtain ⟨l', e', -, -, sp, -⟩ := span_spec grill_knots x
  rw [hl] at e'
  obtain rfl : l' = l := Except.ok.inj (e'.symm.trans e)
  have c := splev_core grill_knots (c := grills_rounded_c) (by simp [grills_rounded_c]) x (l := l') (by omega) l2 sp
  simp only [py_splev, Nat.add_sub_cancel, idx_ok (0 : ℝ) (show 2 < grills_rounded_t.length by omega), hl, Nat.reduceSub, Nat.reduceAdd,
    idx_ok (0 : ℝ) (show 5 < grills_rounded_t.length by omega), Py.ok_bind, OfNat.zero_ne_ofNat, zero_ne_one, and_false, if_false, ne_eq,
    not_true_eq_false, false_and, e]
  simp only [Nat.reduceAdd] at c
  rw [c]
  congr 1
  obtain h | h | h : l' = 3 ∨ l' = 4 ∨ l' = 5 := by omega
  · subst h
    have : x < 0.45 := by simpa [grills_rounded_t] using l3
    rw [if_pos this]
    simp only [Finset.sum_range_succ, Finset.sum_range_zero, bpiece, Nat.reduceAdd, Nat.reduceSub, g 0 (by norm_num), g 1 (by norm_num), g 2 (by norm_num), g 3 (by norm_num),
      g 4 (by norm_num), g 5 (by norm_num), g 6 (by norm_num), g 7 (by norm_num)]
    simp only [grills_rounded_t, grills_rounded_c, piece1]
    norm_num
    ring
  · subst h
    have a : x < 0.55 := by simpa [grills_rounded_t] using l3
    have b : 0.45 ≤ x := by simpa [grills_rounded_t] using l4 3 (by omega) (by omega)
    rw [if_neg (not_lt.mpr b), if_pos a]
    simp only [Finset.sum_range_succ, Finset.sum_range_zero, bpiece, Nat.reduceAdd, Nat.reduceSub, g 0 (by norm_num), g 1 (by norm_num), g 2 (by norm_num), g 3 (by norm_num),
      g 4 (by norm_num), g 5 (by norm_num), g 6 (by norm_num), g 7 (by norm_num)]
    simp only [grills_rounded_t, grills_rounded_c, piece2]
    norm_num
    ring
  · subst h
    have b : 0.55 ≤ x := by simpa [grills_rounded_t] using l4 4 (by omega) (by omega)
    rw [if_neg (not_lt.mpr (le_trans (by norm_num) b)), if_neg (not_lt.mpr b)]
    simp only [Finset.sum_range_succ, Finset.sum_range_zero, bpiece, Nat.reduceAdd, Nat.reduceSub, g 0 (by norm_num), g 1 (by norm_num), g 2 (by norm_num), g 3 (by norm_num),
      g 4 (by norm_num), g 5 (by norm_num), g 6 (by norm_num), g 7 (by norm_num)]
    simp only [grills_rounded_t, grills_rounded_c, piece3]
    norm_num
    ring

/-- the fitted curve -/
def curve (x : ℝ) : ℝ := if x < 0.45 then piece1 x else if x < 0.55 then piece2 x else piece3 x

theorem curve_strictAnti {x y : ℝ} (h : x < y) : curve y < curve x := by
  have j1 : piece1 0.45 = piece2 0.45 := by unfold piece1 piece2; norm_num
  have j2 : piece2 0.55 = piece3 0.55 := by unfold piece3 piece2; norm_num
  have p1 : ∀ {x y : ℝ}, x < y → y ≤ 0.45 → piece1 y < piece1 x := by
    intro x y h h'
    unfold piece1
    nlinarith
  have p2 : ∀ {x y : ℝ}, x < y → y ≤ 0.55 → piece2 y < piece2 x := by
    intro x y h h'
    unfold piece2
    nlinarith
  have p3 : ∀ {x y : ℝ}, x < y → 0 ≤ x → piece3 y < piece3 x := by
    intro x y h h'
    unfold piece3
    nlinarith
  have c2 : ∀ {x : ℝ}, 0.45 ≤ x → x < 0.55 → piece3 0.55 < piece2 x ∧ piece2 x ≤ piece1 0.45 := by
    intro x h h'
    refine ⟨j2 ▸ p2 h' le_rfl, ?_⟩
    rcases h.eq_or_lt with rfl | h
    · exact j1.ge
    · exact j1 ▸ (p2 h h'.le).le
  have c3 : ∀ {x : ℝ}, 0.55 ≤ x → piece3 x ≤ piece3 0.55 := by
    intro x h
    rcases h.eq_or_lt with rfl | h
    · exact le_rfl
    · exact (p3 h (by norm_num)).le
  unfold curve
  by_cases a : y < 0.45
  · rw [if_pos a, if_pos (h.trans a)]; exact p1 h a.le
  rw [if_neg a]
  by_cases b : y < 0.55
  · rw [if_pos b]
    by_cases c : x < 0.45
    · rw [if_pos c]; exact (c2 (not_lt.mp a) b).2.trans_lt (p1 c le_rfl)
    · rw [if_neg c, if_pos (h.trans b)]; exact p2 h b.le
  rw [if_neg b]
  by_cases c : x < 0.45
  · rw [if_pos c]
    exact (c3 (not_lt.mp b)).trans_lt ((c2 le_rfl (by norm_num)).1.trans_le (j1 ▸ (p1 c le_rfl).le))
  · rw [if_neg c]
    by_cases d : x < 0.55
    · rw [if_pos d]; exact (c3 (not_lt.mp b)).trans_lt (c2 (not_lt.mp c) d).1
    · rw [if_neg d]; exact p3 h (by linarith)

theorem round_grill_eq (α : ℝ) : round_edge_grill α none none none = .ok (curve α) := by
  unfold round_edge_grill
  rw [grill_splev, Py.ok_bind]; rfl

/-- C99: the loss of a rounded grill passes through the five published points (to rounding), falls strictly with the open fraction, lies between 0.2 and 2 on the fitted
range, and gains the friction `fd l/(α² Dh)` exactly when the three arguments are given, none is zero and the grill is longer than 50 hydraulic diameters -/
theorem C99_round_grill : (∀ e ∈ [(0.3, 2), (0.4, 1), (0.5, 0.6), (0.6, 0.4), (0.7, (0.2:ℝ))], ∃ K, round_edge_grill e.1 none none none = .ok K ∧ |K - e.2| < 1e-12) ∧
    (∀ {α α' : ℝ}, α < α' → ∃ K K', round_edge_grill α none none none = .ok K ∧ round_edge_grill α' none none none = .ok K' ∧ K' < K) ∧
    (∀ {α : ℝ}, 0.3 ≤ α → α ≤ 0.7 → ∃ K, round_edge_grill α none none none = .ok K ∧ 0.2 ≤ K ∧ K ≤ 2) ∧
    (∀ {α l Dh fd K : ℝ}, α ≠ 0 → 0 < Dh → 0 < fd → 50 * Dh < l → round_edge_grill α none none none = .ok K →
      round_edge_grill α (some l) (some Dh) (some fd) = .ok (K + fd * l / (α ^ 2 * Dh))) ∧
    (∀ {α l Dh fd : ℝ}, l ≤ 50 * Dh ∨ l = 0 ∨ Dh = 0 ∨ fd = 0 → round_edge_grill α (some l) (some Dh) (some fd) = round_edge_grill α none none none) ∧
    (∀ {α : ℝ} {l Dh fd : Option ℝ}, l = none ∨ Dh = none ∨ fd = none → round_edge_grill α l Dh fd = round_edge_grill α none none none) := by
  have e3 : curve 0.3 = 2 := by norm_num [curve, piece1]
  have e7 : curve 0.7 = 0.2 := by norm_num [curve, piece3]
  have mono : ∀ {x y : ℝ}, x ≤ y → curve y ≤ curve x := fun h => by
    rcases h.eq_or_lt with rfl | h
    · exact le_rfl
    · exact (curve_strictAnti h).le
  refine ⟨?_, fun h => ⟨_, _, round_grill_eq _, round_grill_eq _, curve_strictAnti h⟩, fun {α} h h' => ⟨_, round_grill_eq α, ?_, ?_⟩, ?_, ?_, ?_⟩
  · intro e he
    refine ⟨_, round_grill_eq _, ?_⟩
    simp only [List.mem_cons, List.not_mem_nil, or_false] at he
    rcases he with rfl | rfl | rfl | rfl | rfl <;> norm_num [curve, piece1, piece2, piece3, abs_lt]
  · rw [← e7]; exact mono h'
  · rw [← e3]; exact mono h
  · intro α l Dh fd K ha hD hf hl h
    rw [round_grill_eq] at h
    obtain rfl := Except.ok.inj h
    have l0 : l ≠ 0 := (lt_trans (by positivity) hl).ne'
    have n : α * α * Dh ≠ 0 := by positivity
    unfold round_edge_grill
    rw [grill_splev, Py.ok_bind]
    simp only [roundGrill, gt_iff_lt]
    rw [if_pos ⟨hD.ne', l0, hf.ne', hl⟩, pdiv_ok n, Py.ok_bind, sq]; rfl
  · intro α l Dh fd h
    unfold round_edge_grill
    rw [grill_splev, Py.ok_bind, Py.ok_bind]
    simp only [roundGrill, gt_iff_lt]
    rw [if_neg]
    rintro ⟨h1, h2, h3, h4⟩
    rcases h with h | h | h | h
    · linarith
    · exact h2 h
    · exact h1 h
    · exact h3 h
  · intro α l Dh fd h
    unfold round_edge_grill
    rw [grill_splev, Py.ok_bind, Py.ok_bind]
    rcases h with rfl | rfl | rfl
    · simp only [roundGrill]
    · cases l <;> simp only [roundGrill]
    · cases l <;> cases Dh <;> simp only [roundGrill]

/-- C99: finding: beyond the fitted range the curve is extrapolated, not held constant: every grill more than 80 % open has a negative loss coefficient, and a fully
open one about -0.54 -/
theorem C99_round_grill_extrapolation : (∀ α : ℝ, 0.8 ≤ α → ∃ K, round_edge_grill α none none none = .ok K ∧ K < 0) ∧
    ∃ K, round_edge_grill 1 none none none = .ok K ∧ K < -0.53 := by
  have e8 : curve 0.8 < 0 := by norm_num [curve, piece3]
  refine ⟨fun α h => ⟨_, round_grill_eq α, ?_⟩, _, round_grill_eq 1, by norm_num [curve, piece3]⟩
  rcases h.eq_or_lt with rfl | h
  · exact e8
  · exact (curve_strictAnti h).trans e8

/-- C99: at the Reynolds numbers of Idelchik's table a round-edged screen across the flow has the tabulated multiple of `(1-α²)/α²`, and so it has beyond the ends of the table -/
theorem C99_screen_table {α : ℝ} (h0 : 0 < α) :
    (∀ p ∈ [((20 : ℝ), (1.3 : ℝ)), (30, 1.1), (40, 0.95), (60, 0.83), (80, 0.75), (100, 0.7), (200, 0.6), (400, 0.52)],
      round_edge_screen α p.1 none = .ok (p.2 * (1 - α * α) / (α * α))) := by
  have F : ∀ {R b : ℝ}, interp R round_Res round_betas none none false = .ok b → round_edge_screen α R none = .ok (b * (1 - α * α) / (α * α)) := by
    intro R b hb
    simp only [round_edge_screen, hb, Py.ok_bind, pdiv_ok (mul_ne_zero h0.ne' h0.ne'), screenAngle, Py.pure_eq, mul_one]
  have I : ∀ (i : ℕ) (hi : i + 1 < 8), interp (round_Res.getD i 0) round_Res round_betas none none false = .ok (round_betas.getD i 0) ∧
      interp (round_Res.getD (i + 1) 0) round_Res round_betas none none false = .ok (round_betas.getD (i + 1) 0) := by
    intro i hi
    have hs : round_Res.Pairwise (· < ·) := by unfold round_Res; norm_num
    have hlt : round_Res.getD i 0 < round_Res.getD (i + 1) 0 := by
      have : i < 7 := by omega
      interval_cases i <;> norm_num [round_Res]
    rw [C21_interp_inside _ round_Res round_betas hs rfl none none false i (by simpa [round_Res] using hi) le_rfl hlt.le,
      C21_interp_inside _ round_Res round_betas hs rfl none none false i (by simpa [round_Res] using hi) hlt.le le_rfl]
    have : round_Res.getD (i + 1) 0 - round_Res.getD i 0 ≠ 0 := by linarith
    refine ⟨?_, ?_⟩ <;> congr 1 <;> field_simp <;> ring
  intro p hp
  simp only [List.mem_cons, List.not_mem_nil, or_false] at hp
  have I0 := I 0 (by norm_num)
  have I2 := I 2 (by norm_num)
  have I4 := I 4 (by norm_num)
  have I6 := I 6 (by norm_num)
  simp only [round_Res, round_betas, List.getD_cons_succ, List.getD_cons_zero] at I0 I2 I4 I6
  rcases hp with rfl | rfl | rfl | rfl | rfl | rfl | rfl | rfl
  exacts [F I0.1, F I0.2, F I2.1, F I2.2, F I4.1, F I4.2, F I6.1, F I6.2]

example : round_edge_screen 0.5 30 none = .ok (1.1 * (1 - 0.5 * 0.5) / (0.5 * 0.5)) := C99_screen_table (by norm_num) (30, 1.1) (by simp)

end Verif.Filters
