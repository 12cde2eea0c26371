import Verif.Lemmas.TwoPhaseSeparated
import Verif.Props.Friction

/-! C100: the separated-flow two-phase pressure drop correlations. -/

open Real

noncomputable section

namespace Verif.TwoPhase

open Spec.TwoPhase

variable {ff : ℝ → ℝ → Py ℝ} {f : ℝ → ℝ} {m x rhol rhog mul mug sigma D roughness L Rec : ℝ}

/-! ### the hypothesis -/

/-- The library's own friction factor meets `Flow` for every positive flow in a pipe of relative roughness up to 5 %. -/
theorem flow_default (W : ℝ → ℝ) (hm : 0 < m) (hl : 0 < rhol) (hg : 0 < rhog) (hmul : 0 < mul) (hmug : 0 < mug) (hD : 0 < D) (h0 : 0 ≤ roughness)
    (h5 : roughness / D ≤ 0.05) : ∃ f, Flow (fun Re eD => Friction.friction_factor W Re eD none true) f m rhol rhog mul mug D roughness := by
  have key : ∀ Re : ℝ, ∃ f, 0 < Re → 0 < f ∧ Friction.friction_factor W Re (roughness / D) none true = .ok f := by
    intro Re
    by_cases hRe : 0 < Re
    · obtain ⟨f, h1, h2⟩ := Friction.C40_default_total (W := W) hRe (div_nonneg h0 hD.le) h5 true
      exact ⟨f, fun _ => ⟨h1, h2⟩⟩
    · exact ⟨0, fun h => absurd h hRe⟩
  choose f hf using key
  exact ⟨f, hm, hl, hg, hmul, hmug, hD, fun Re h => (hf Re h).2, fun Re h => (hf Re h).1⟩

/-- A laminar pipe. -/
theorem flow_laminar (hm : 0 < m) (hl : 0 < rhol) (hg : 0 < rhog) (hmul : 0 < mul) (hmug : 0 < mug) (hD : 0 < D) :
    Flow (fun Re _ => pdiv 64 Re) (fun Re => 64 / Re) m rhol rhog mul mug D roughness :=
  ⟨hm, hl, hg, hmul, hmug, hD, fun _ h => pdiv_ok h.ne', fun _ h => by positivity⟩

example : ∃ f, Flow (fun Re eD => Friction.friction_factor (fun _ => 0) Re eD none true) f 0.6 915 2.67 180e-6 14e-6 0.05 1e-5 :=
  flow_default _ (by norm_num) (by norm_num) (by norm_num) (by norm_num) (by norm_num) (by norm_num) (by norm_num) (by norm_num)

/-! ### what the separated flow form implies -/

/-- C100: with a positive interaction constant the separated-flow drop exceeds the sum of the drops of the phases flowing alone, and is at least
that of `C = 0`; at `C = 2` it is the square of the sum of square roots; exchanging the phases changes nothing but `C`; it is additive along the pipe. -/
theorem C100_form {C Pl Pg : ℝ} (hl : 0 < Pl) (hg : 0 < Pg) :
    (0 < C → Pl + Pg < separated C Pl Pg) ∧ separated 0 Pl Pg = Pl + Pg ∧ separated 2 Pl Pg = (√Pl + √Pg) ^ 2 ∧
    separated C Pl Pg = separated C Pg Pl ∧ ∀ L ≥ 0, separated C (L * Pl) (L * Pg) = L * separated C Pl Pg := by
  have h := sqrt_pos.mpr (mul_pos hl hg)
  refine ⟨fun hC => ?_, by simp [separated], ?_, ?_, fun L hL => ?_⟩
  · have := mul_pos hC h; unfold separated; linarith
  · unfold separated
    rw [sqrt_mul hl.le]
    linear_combination -(sq_sqrt hl.le) - sq_sqrt hg.le
  · unfold separated; rw [mul_comm Pl]; ring
  · unfold separated
    rw [show L * Pl * (L * Pg) = L ^ 2 * (Pl * Pg) by ring, sqrt_mul (by positivity), sqrt_sq hL]; ring

/-! ### the correlations -/

/-- C100: Lockhart-Martinelli uses the C table of the two flow regimes (5, 10, 12, 20) and its own friction factor; a quality above 1 - 1e-13 gives the gas
drop alone, a positive quality below 1e-30 the liquid drop alone. Finding: at quality exactly 0 it raises ZeroDivisionError instead. -/
theorem C100_Lockhart (hm : 0 < m) (hl : 0 < rhol) (hg : 0 < rhog) (hmul : 0 < mul) (hmug : 0 < mug) (hD : 0 < D) (hL : 0 < L) :
    (1e-30 ≤ x → x ≤ 1 - 1e-13 → Lockhart_Martinelli m x rhol rhog mul mug D L Rec =
      .ok (separated (if Rec ≤ Re (m * (1 - x)) rhol mul D then (if Rec ≤ Re (m * x) rhog mug D then 20 else 10)
          else (if Rec ≤ Re (m * x) rhog mug D then 12 else 5))
        (drop (fun Re => if Re < Rec then 64 / Re else 0.184 / Re ^ (0.2 : ℝ)) (m * (1 - x)) rhol mul D L)
        (drop (fun Re => if Re < Rec then 64 / Re else 0.184 / Re ^ (0.2 : ℝ)) (m * x) rhog mug D L))) ∧
    (0 < x → x < 1e-30 → Lockhart_Martinelli m x rhol rhog mul mug D L Rec =
      .ok (drop (fun Re => if Re < Rec then 64 / Re else 0.184 / Re ^ (0.2 : ℝ)) (m * (1 - x)) rhol mul D L)) ∧
    (1 - 1e-13 < x → Lockhart_Martinelli m x rhol rhog mul mug D L Rec =
      .ok (drop (fun Re => if Re < Rec then 64 / Re else 0.184 / Re ^ (0.2 : ℝ)) (m * x) rhog mug D L)) ∧
    (0 < Rec → Lockhart_Martinelli m 0 rhol rhog mul mug D L Rec = .error .zeroDivisionError) :=
  ⟨fun h0 h1 => Lockhart_eq hm hl hg hmul hmug hD h0 h1 hL, (Lockhart_ends hm hl hg hmul hmug hD).1, (Lockhart_ends hm hl hg hmul hmug hD).2.1,
    (Lockhart_ends (x := x) hm hl hg hmul hmug hD).2.2⟩

/-- C100: Kim-Mudawar takes C from the table of the four laminar/turbulent combinations (transition at 2000), all positive, and the three-range friction
factor with limits 2000 and 20000. -/
theorem C100_Kim (hm : 0 < m) (hl : 0 < rhol) (hg : 0 < rhog) (hmul : 0 < mul) (hmug : 0 < mug) (hs : 0 < sigma) (hD : 0 < D)
    (hx0 : 0 < x) (hx1 : x < 1) (hL : 0 < L) :
    ∃ C > 0, C = kimC (Re (m * (1 - x)) rhol mul D) (Re (m * x) rhog mug D) (Re m rhol mul D) (rhog * sigma * D / mug ^ 2) rhol rhog ∧
    Kim_Mudawar m x rhol rhog mul mug sigma D L = .ok (separated C (drop kimF (m * (1 - x)) rhol mul D L) (drop kimF (m * x) rhog mug D L)) :=
  ⟨_, (Flow.kimC_ok hl hg (Re_pos hm hl hmul hD) (by positivity)).2, rfl, Kim_eq hm hl hg hmul hmug hs hD hx0 hx1 hL⟩

/-- C100: Kim-Mudawar raises ZeroDivisionError when one phase is absent. -/
theorem C100_Kim_ends (hl : 0 < rhol) (hg : 0 < rhog) (hmul : 0 < mul) (hmug : 0 < mug) (hD : 0 < D) (hm : 0 < m) :
    Kim_Mudawar m 0 rhol rhog mul mug sigma D L = .error .zeroDivisionError ∧
    Kim_Mudawar m 1 rhol rhog mul mug sigma D L = .error .zeroDivisionError := by
  have r1 := (Flow.kimF_ok (Re_pos hm hl hmul hD)).1
  have z : ∀ r u : ℝ, Re (m * 0) r u D = 0 := fun r u => by simp [Re, velocity]
  have k0 : friction_factor_Kim_Mudawar 0 = .error .zeroDivisionError := by
    simp [friction_factor_Kim_Mudawar]
  constructor
  · simp only [Kim_Mudawar, sub_zero, mul_one, vel1 hl hD, vel1 hg hD, rey hl hmul, rey hg hmug, Py.ok_bind, r1, pdiv_ok hD.ne', z, k0, Py.error_bind]
  · simp only [Kim_Mudawar, sub_self, vel1 hl hD, rey hl hmul, Py.ok_bind, z, k0, Py.error_bind]

section
variable (h : Flow ff f m rhol rhog mul mug D roughness) (hL : 0 < L)
include h hL

/-- C100: Mishima-Hibiki, with C = 21 (1 - exp(-319 D)) between 0 and 21. -/
theorem C100_Mishima (hx0 : 0 < x) (hx1 : x < 1) :
    ∃ C, C = 21 * (1 - exp (-319 * D)) ∧ 0 < C ∧ C < 21 ∧ Mishima_Hibiki ff m x rhol rhog mul mug sigma D roughness L =
      .ok (separated C (drop f (m * (1 - x)) rhol mul D L) (drop f (m * x) rhog mug D L)) := by
  refine ⟨_, rfl, ?_, ?_, h.Mishima_eq hx0 hx1 hL⟩
  · have : exp (-319 * D) < 1 := by rw [exp_lt_one_iff]; linarith [h.D0]
    linarith
  · have := exp_pos (-319 * D); linarith

/-- C100: Zhang-Hibiki-Mishima takes the coefficient of the three documented flow types over the confinement number, giving C between 0 and 21, and
any other flow type raises ValueError. -/
theorem C100_Zhang (hx0 : 0 < x) (hx1 : x < 1) (hr : rhog < rhol) (hs : 0 < sigma) :
    (∀ p ∈ [("adiabatic vapor", (0.142 : ℝ)), ("adiabatic gas", 0.674), ("flow boiling", 0.358)],
      ∃ C, C = 21 * (1 - exp (-p.2 / Co D rhol rhog sigma)) ∧ 0 < C ∧ C < 21 ∧ Zhang_Hibiki_Mishima ff m x rhol rhog mul mug sigma D roughness L p.1 =
        .ok (separated C (drop f (m * (1 - x)) rhol mul D L) (drop f (m * x) rhog mug D L))) ∧
    ∀ t, t ≠ "adiabatic vapor" → t ≠ "adiabatic gas" → t ≠ "flow boiling" →
      Zhang_Hibiki_Mishima ff m x rhol rhog mul mug sigma D roughness L t = .error .valueError := by
  have hc := Co_pos h.D0 hs hr
  have key : ∀ k : ℝ, 0 < k → 0 < 21 * (1 - exp (-k / Co D rhol rhog sigma)) ∧ 21 * (1 - exp (-k / Co D rhol rhog sigma)) < 21 := by
    intro k hk
    have h1 : exp (-k / Co D rhol rhog sigma) < 1 := by rw [exp_lt_one_iff, neg_div]; have := div_pos hk hc; linarith
    have h2 := exp_pos (-k / Co D rhol rhog sigma)
    constructor <;> linarith
  refine ⟨?_, fun t h1 h2 h3 => h.Zhang_error hx0 hx1 hL hr hs ?_⟩
  · simp only [List.forall_mem_cons, List.not_mem_nil, false_imp_iff, implies_true, and_true]
    refine ⟨⟨_, rfl, (key _ (by norm_num)).1, (key _ (by norm_num)).2, h.Zhang_eq hx0 hx1 hL hr hs ?_⟩,
      ⟨_, rfl, (key _ (by norm_num)).1, (key _ (by norm_num)).2, h.Zhang_eq hx0 hx1 hL hr hs ?_⟩,
      ⟨_, rfl, (key _ (by norm_num)).1, (key _ (by norm_num)).2, h.Zhang_eq hx0 hx1 hL hr hs ?_⟩⟩ <;> simp [Flow.zhangC_ok hc]
  · simp [Flow.zhangC_ok hc, h1, h2, h3]

/-- C100: Hwang-Kim. -/
theorem C100_Hwang (hx0 : 0 < x) (hx1 : x < 1) (hr : rhog < rhol) (hs : 0 < sigma) :
    ∃ C > 0, C = 0.227 * Re m rhol mul D ^ (0.452 : ℝ) * √(drop f (m * (1 - x)) rhol mul D L / drop f (m * x) rhog mug D L) ^ (-0.32 : ℝ) *
        Co D rhol rhog sigma ^ (-0.82 : ℝ) ∧
      Hwang_Kim ff m x rhol rhog mul mug sigma D roughness L =
        .ok (separated C (drop f (m * (1 - x)) rhol mul D L) (drop f (m * x) rhog mug D L)) := by
  obtain ⟨r1, r2, r3, p1, p2⟩ := h.sep hx0 hx1 hL
  have hc := Co_pos h.D0 hs hr
  exact ⟨_, by positivity, rfl, h.Hwang_eq hx0 hx1 hL hr hs⟩

/-- C100: Wang-Chiang-Lu below a mass flux of 200 is the separated-flow form with a positive C; from 200 on it multiplies the gas drop by a factor above 1. -/
theorem C100_Wang (hx0 : 0 < x) (hx1 : x < 1) :
    (flux m D < 200 → ∃ C > 0, C = wangC √(drop f (m * (1 - x)) rhol mul D L / drop f (m * x) rhog mug D L) (Re m rhol mul D) rhol rhog mul mug ∧
      Wang_Chiang_Lu ff m x rhol rhog mul mug D roughness L =
        .ok (separated C (drop f (m * (1 - x)) rhol mul D L) (drop f (m * x) rhog mug D L))) ∧
    (200 ≤ flux m D → ∃ φ > 1, φ = 1 + 9.397 * √(drop f (m * (1 - x)) rhol mul D L / drop f (m * x) rhog mug D L) ^ (0.62 : ℝ) +
        0.564 * √(drop f (m * (1 - x)) rhol mul D L / drop f (m * x) rhog mug D L) ^ (2.45 : ℝ) ∧
      Wang_Chiang_Lu ff m x rhol rhog mul mug D roughness L = .ok (drop f (m * x) rhog mug D L * φ)) := by
  obtain ⟨r1, r2, r3, p1, p2⟩ := h.sep hx0 hx1 hL
  have e := h.Wang_eq hx0 hx1 hL
  obtain ⟨h1, h2, h3, h4, h5, h6, h7, h8⟩ := h
  have hq := sqrt_pos.mpr (div_pos p1 p2)
  refine ⟨fun hG => ?_, fun hG => ?_⟩
  · rw [if_neg (not_le.mpr hG)] at e
    exact ⟨_, by unfold wangC; positivity, rfl, e⟩
  · rw [if_pos hG] at e
    refine ⟨_, ?_, rfl, e⟩
    have a1 := rpow_pos_of_pos hq 0.62; have a2 := rpow_pos_of_pos hq 2.45
    linarith

omit hL in
/-- C100: when the friction factor of a phase at rest is an error (the library's is, see `friction_at_rest`), these correlations pass it on for a single-phase flow. -/
theorem C100_single_phase {er : PyErr} (h0 : ff 0 (roughness / D) = .error er) (t : String) :
    Mishima_Hibiki ff m 0 rhol rhog mul mug sigma D roughness L = .error er ∧ Mishima_Hibiki ff m 1 rhol rhog mul mug sigma D roughness L = .error er ∧
    Zhang_Hibiki_Mishima ff m 0 rhol rhog mul mug sigma D roughness L t = .error er ∧
    Zhang_Hibiki_Mishima ff m 1 rhol rhog mul mug sigma D roughness L t = .error er ∧
    Hwang_Kim ff m 0 rhol rhog mul mug sigma D roughness L = .error er ∧ Hwang_Kim ff m 1 rhol rhog mul mug sigma D roughness L = .error er ∧
    Wang_Chiang_Lu ff m 0 rhol rhog mul mug D roughness L = .error er ∧ Wang_Chiang_Lu ff m 1 rhol rhog mul mug D roughness L = .error er := by
  obtain ⟨h1, h2, h3, h4, h5, h6, h7, h8⟩ := h
  have r1 := Re_pos h1 h2 h4 h6
  have z : ∀ r u : ℝ, Re (m * 0) r u D = 0 := fun r u => by simp [Re, velocity]
  refine ⟨?_, ?_, ?_, ?_, ?_, ?_, ?_, ?_⟩ <;>
  simp only [Mishima_Hibiki, Zhang_Hibiki_Mishima, Hwang_Kim, Wang_Chiang_Lu, flux_ok h6, sub_zero, sub_self, mul_one, vel1 h2 h6, vel1 h3 h6, Py.ok_bind, rey h2 h4,
    rey h3 h5, pdiv_ok h6.ne', z, h0, h7 _ r1, Py.error_bind]

end

/-- C100: the library's friction factor at a Reynolds number of zero raises ZeroDivisionError. -/
theorem friction_at_rest (W : ℝ → ℝ) (e : ℝ) : Friction.friction_factor W 0 e none true = .error .zeroDivisionError := by
  simp [Friction.friction_factor, Friction.frictionDarcy, Friction.LAMINAR_TRANSITION_PIPE, Friction.friction_laminar]

/-- C100: each of these correlations is proportional to the length. -/
theorem C100_length (h : Flow ff f m rhol rhog mul mug D roughness) (hL : 0 < L) (hx0 : 0 < x) (hx1 : x < 1) (hr : rhog < rhol) (hs : 0 < sigma) {P : ℝ} (t : String) :
    (Mishima_Hibiki ff m x rhol rhog mul mug sigma D roughness 1 = .ok P → Mishima_Hibiki ff m x rhol rhog mul mug sigma D roughness L = .ok (L * P)) ∧
    (Zhang_Hibiki_Mishima ff m x rhol rhog mul mug sigma D roughness 1 t = .ok P → Zhang_Hibiki_Mishima ff m x rhol rhog mul mug sigma D roughness L t = .ok (L * P)) ∧
    (Hwang_Kim ff m x rhol rhog mul mug sigma D roughness 1 = .ok P → Hwang_Kim ff m x rhol rhog mul mug sigma D roughness L = .ok (L * P)) ∧
    (Wang_Chiang_Lu ff m x rhol rhog mul mug D roughness 1 = .ok P → Wang_Chiang_Lu ff m x rhol rhog mul mug D roughness L = .ok (L * P)) ∧
    (Kim_Mudawar m x rhol rhog mul mug sigma D 1 = .ok P → Kim_Mudawar m x rhol rhog mul mug sigma D L = .ok (L * P)) ∧
    (1e-30 ≤ x → x ≤ 1 - 1e-13 → Lockhart_Martinelli m x rhol rhog mul mug D 1 Rec = .ok P → Lockhart_Martinelli m x rhol rhog mul mug D L Rec = .ok (L * P)) := by
  have key : ∀ (q : ℝ → ℝ) (C : ℝ), (∀ Re > 0, 0 < q Re) → separated C (drop q (m * (1 - x)) rhol mul D L) (drop q (m * x) rhog mug D L) =
      L * separated C (drop q (m * (1 - x)) rhol mul D 1) (drop q (m * x) rhog mug D 1) := by
    intro q C hg
    obtain ⟨h1, h2, h3, h4, h5, h6, -, -⟩ := h
    rw [drop_L q _ _ _ _ L, drop_L q _ _ _ _ L]
    exact (C100_form (drop_pos hg (mul_pos h1 (by linarith)) h2 h4 h6 one_pos) (drop_pos hg (mul_pos h1 hx0) h3 h5 h6 one_pos)).2.2.2.2 L hL.le
  have hX : drop f (m * (1 - x)) rhol mul D L / drop f (m * x) rhog mug D L = drop f (m * (1 - x)) rhol mul D 1 / drop f (m * x) rhog mug D 1 := by
    rw [drop_L f _ _ _ _ L, drop_L f _ _ _ _ L, mul_div_mul_left _ _ hL.ne']
  refine ⟨fun e => ?_, fun e => ?_, fun e => ?_, fun e => ?_, fun e => ?_, fun a b e => ?_⟩
  · rw [h.Mishima_eq hx0 hx1 one_pos] at e
    rw [h.Mishima_eq hx0 hx1 hL, key f _ h.pos, Except.ok.inj e]
  · have hc := Flow.zhangC_ok (Co_pos h.D0 hs hr) t
    rcases hC : Zhang_Hibiki_Mishima_C (Co D rhol rhog sigma) t with er | C
    · have : er = .valueError := by
        rw [hC] at hc
        split_ifs at hc
        exact Except.error.inj hc
      rw [h.Zhang_error hx0 hx1 one_pos hr hs (this ▸ hC)] at e
      exact absurd e (by simp)
    · rw [h.Zhang_eq hx0 hx1 one_pos hr hs hC] at e
      rw [h.Zhang_eq hx0 hx1 hL hr hs hC, key f _ h.pos, Except.ok.inj e]
  · rw [h.Hwang_eq hx0 hx1 one_pos hr hs] at e
    rw [h.Hwang_eq hx0 hx1 hL hr hs, hX, key f _ h.pos, Except.ok.inj e]
  · rw [h.Wang_eq hx0 hx1 one_pos] at e
    rw [h.Wang_eq hx0 hx1 hL, hX]
    split_ifs at e ⊢
    · rw [drop_L f _ _ _ _ L, mul_assoc, Except.ok.inj e]
    · rw [key f _ h.pos, Except.ok.inj e]
  · obtain ⟨h1, h2, h3, h4, h5, h6, -, -⟩ := h
    rw [Kim_eq h1 h2 h3 h4 h5 hs h6 hx0 hx1 one_pos] at e
    rw [Kim_eq h1 h2 h3 h4 h5 hs h6 hx0 hx1 hL, key kimF _ fun R hR => (Flow.kimF_ok hR).2, Except.ok.inj e]
  · obtain ⟨h1, h2, h3, h4, h5, h6, -, -⟩ := h
    rw [Lockhart_eq h1 h2 h3 h4 h5 h6 a b one_pos] at e
    rw [Lockhart_eq h1 h2 h3 h4 h5 h6 a b hL, key (lockhartF Rec) _ fun R hR => (lockhartF_ok hR).2, Except.ok.inj e]

example : ∃ P, Kim_Mudawar 0.6 0.1 915 2.67 180e-6 14e-6 0.0487 0.05 1 = .ok P ∧ 0 < P := by
  obtain ⟨C, hC, -, h⟩ := C100_Kim (m := 0.6) (x := 0.1) (rhol := 915) (rhog := 2.67) (mul := 180e-6) (mug := 14e-6) (sigma := 0.0487) (D := 0.05) (L := 1)
    (by norm_num) (by norm_num) (by norm_num) (by norm_num) (by norm_num) (by norm_num) (by norm_num) (by norm_num) (by norm_num) (by norm_num)
  have hf : ∀ Re > 0, 0 < kimF Re := fun R hR => (Flow.kimF_ok hR).2
  have p1 : 0 < drop kimF (0.6 * (1 - 0.1)) 915 180e-6 0.05 1 := drop_pos hf (by norm_num) (by norm_num) (by norm_num) (by norm_num) one_pos
  have p2 : 0 < drop kimF (0.6 * 0.1) 2.67 14e-6 0.05 1 := drop_pos hf (by norm_num) (by norm_num) (by norm_num) (by norm_num) one_pos
  exact ⟨_, h, lt_trans (add_pos p1 p2) ((C100_form p1 p2).1 hC)⟩

end Verif.TwoPhase
