import Verif.Lemmas.Roots

/-! # C14: closed form roots of quadratics and cubics -/

namespace Verif
open Complex Verif.Roots

/-- C14: for `a ≠ 0` the two returned numbers are exactly the two complex roots (with multiplicity), and they are real
exactly when the discriminant is nonnegative. For `a = 0` the root of the linear equation is returned twice, and
`a = b = 0` raises ZeroDivisionError. -/
theorem C14_roots_quadratic (a b c : ℝ) :
    (a ≠ 0 → ∃ x1 x2 : ℂ, roots_quadratic a b c = .ok (x1, x2) ∧
      (∀ x : ℂ, a * x ^ 2 + b * x + c = a * (x - x1) * (x - x2)) ∧
      (x1.im = 0 ∧ x2.im = 0 ↔ 0 ≤ b ^ 2 - 4 * a * c)) ∧
    (a = 0 → b ≠ 0 → ∃ r : ℝ, roots_quadratic a b c = .ok ((r : ℂ), (r : ℂ)) ∧
      ∀ x : ℂ, a * x ^ 2 + b * x + c = 0 ↔ x = r) ∧
    (a = 0 → b = 0 → roots_quadratic a b c = .error .zeroDivisionError) := by
  refine ⟨fun ha => ?_, fun ha hb => ?_, fun ha hb => by simp [roots_quadratic, ha, hb]⟩
  · have hac : (a : ℂ) ≠ 0 := by exact_mod_cast ha
    by_cases hD : b * b - 4 * a * c < 0
    · have hD' : 0 ≤ -(b * b - 4 * a * c) := by linarith
      refine ⟨_, _, by
        simp only [roots_quadratic, if_neg ha, pdiv_ok ha, Py.ok_bind, Py.pure_eq, if_pos hD, psqrt_ok hD']; rfl, ?_, ?_⟩
      · intro x
        have hs : ((√(-(b * b - 4 * a * c)) : ℝ) : ℂ) * ((√(-(b * b - 4 * a * c)) : ℝ) : ℂ) = -(b * b - 4 * a * c) := by
          rw [← ofReal_mul, Real.mul_self_sqrt hD']; push_cast; ring
        generalize ((√(-(b * b - 4 * a * c)) : ℝ) : ℂ) = s at *
        push_cast
        field_simp
        have hI : (I : ℂ) ^ 2 = -1 := I_sq
        linear_combination (-(b * b - 4 * a * c) : ℂ) * hI + I ^ 2 * hs
      · have hpos : 0 < √(-(b * b - 4 * a * c)) := Real.sqrt_pos.mpr (by linarith)
        constructor
        · rintro ⟨h1, -⟩
          exfalso
          have e : ((-(b : ℂ) + ((√(-(b * b - 4 * a * c)) : ℝ) : ℂ) * I) * ((1 / 2 / a : ℝ) : ℂ)).im
              = √(-(b * b - 4 * a * c)) * (1 / 2 / a) := by
            rw [im_mul_ofReal]; simp
          rw [e] at h1
          rcases mul_eq_zero.mp h1 with h | h
          · linarith
          · have : (1 / 2 / a : ℝ) ≠ 0 := by positivity
            exact this h
        · intro h; exfalso; nlinarith
    · have hD' : 0 ≤ b * b - 4 * a * c := not_lt.mp hD
      refine ⟨_, _, by
        simp only [roots_quadratic, if_neg ha, pdiv_ok ha, Py.ok_bind, Py.pure_eq, if_neg hD, psqrt_ok hD']; rfl, ?_, ?_⟩
      · intro x
        have hs : ((√(b * b - 4 * a * c) : ℝ) : ℂ) * ((√(b * b - 4 * a * c) : ℝ) : ℂ) = (b * b - 4 * a * c) := by
          rw [← ofReal_mul, Real.mul_self_sqrt hD']; push_cast; ring
        push_cast
        generalize ((√(b * b - 4 * a * c) : ℝ) : ℂ) = s at *
        field_simp
        linear_combination hs
      · constructor
        · intro _; nlinarith
        · intro _; exact ⟨ofReal_im _, ofReal_im _⟩
  · refine ⟨-c / b, by simp [roots_quadratic, ha, pdiv_ok hb], fun x => ?_⟩
    have hbc : (b : ℂ) ≠ 0 := by exact_mod_cast hb
    subst ha
    push_cast
    constructor
    · intro h; field_simp; linear_combination h
    · rintro rfl; field_simp; ring

example : (1 : ℝ) ≠ 0 ∧ (0 : ℝ) ≤ (-3) ^ 2 - 4 * 1 * 2 := by norm_num

/-- C14: when it returns, `roots_cubic_a2` returns the three roots of the (complex) cubic with multiplicity. -/
theorem C14_roots_cubic_a2 (a b c d : ℂ) {x1 x2 x3 : ℂ} (h : roots_cubic_a2 a b c d = .ok (x1, x2, x3)) (x : ℂ) :
    a * x ^ 3 + b * x ^ 2 + c * x + d = a * (x - x1) * (x - x2) * (x - x3) := by
  by_cases ha : a = 0
  · simp [roots_cubic_a2, ha] at h
  simp only [roots_cubic_a2, pdiv_ok ha, Py.ok_bind] at h
  generalize ht20 : csqrt (-18 * a * b * c * d + 4 * a * (c * c) * c + 4 * (b * b * b) * d - b * b * (c * c)
    + 27 * (a * a) * (d * d)) = t20 at h
  have h20 := csqrt_sq (-18 * a * b * c * d + 4 * a * (c * c) * c + 4 * (b * b * b) * d - b * b * (c * c)
    + 27 * (a * a) * (d * d))
  rw [ht20] at h20
  generalize ht31 : cthird (36 * c * b * a + 12 * (√3 : ℝ) * t20 * a - 108 * d * (a * a) - 8 * (b * b * b)) = W at h
  have h31 := cthird_pow (36 * c * b * a + 12 * (√3 : ℝ) * t20 * a - 108 * d * (a * a) - 8 * (b * b * b))
  rw [ht31] at h31
  by_cases hW : W = 0
  · simp [hW] at h
  simp only [pdiv_ok hW, Py.ok_bind, Py.pure_eq, Except.ok.injEq, Prod.mk.injEq] at h
  obtain ⟨rfl, rfl, rfl⟩ := h
  have h3 := sqrt3_c
  generalize ((√3 : ℝ) : ℂ) = s at *
  have hV3 : W ^ 3 + (4 * (b ^ 2 - 3 * a * c) / W) ^ 3 = 2 * (36 * a * b * c - 108 * a ^ 2 * d - 8 * b ^ 3) := by
    have hW3 : W ^ 3 ≠ 0 := pow_ne_zero _ hW
    rw [div_pow]
    field_simp
    rw [show W ^ 6 = W ^ 3 * W ^ 3 by ring] 
    rw [h31]
    linear_combination 144 * a ^ 2 * (t20 * t20) * h3 + 432 * a ^ 2 * h20
  rw [cardano a b c d W (4 * (b ^ 2 - 3 * a * c) / W) s x ha h3 (by field_simp) hV3]
  congr 1
  congr 1
  all_goals field_simp; ring

/-- C14: when it returns, `roots_cubic_a1` returns the three roots of the monic (complex) cubic with multiplicity. -/
theorem C14_roots_cubic_a1 (b c d : ℂ) {x1 x2 x3 : ℂ} (h : roots_cubic_a1 b c d = .ok (x1, x2, x3)) (x : ℂ) :
    x ^ 3 + b * x ^ 2 + c * x + d = (x - x1) * (x - x2) * (x - x3) := by
  simp only [roots_cubic_a1] at h
  generalize ht20 : csqrt (12 * (c * c) * c + 12 * (b * b * b) * d - 54 * (c * b) * d - 3 * (b * b) * (c * c)
    + 81 * (d * d)) = t20 at h
  have h20 := csqrt_sq (12 * (c * c) * c + 12 * (b * b * b) * d - 54 * (c * b) * d - 3 * (b * b) * (c * c)
    + 81 * (d * d))
  rw [ht20] at h20
  generalize ht31 : cthird (-8 * (b * b * b) + 36 * (c * b) - 108 * d + 12 * t20) = W at h
  have h31 := cthird_pow (-8 * (b * b * b) + 36 * (c * b) - 108 * d + 12 * t20)
  rw [ht31] at h31
  by_cases hW : W = 0
  · simp [hW] at h
  simp only [pdiv_ok hW, Py.ok_bind, Py.pure_eq, Except.ok.injEq, Prod.mk.injEq] at h
  obtain ⟨rfl, rfl, rfl⟩ := h
  have h3 := sqrt3_c
  generalize ((√3 : ℝ) : ℂ) = s at *
  have hV3 : W ^ 3 + (4 * (b ^ 2 - 3 * 1 * c) / W) ^ 3 = 2 * (36 * 1 * b * c - 108 * 1 ^ 2 * d - 8 * b ^ 3) := by
    have hW3 : W ^ 3 ≠ 0 := pow_ne_zero _ hW
    rw [div_pow]
    field_simp
    rw [show W ^ 6 = W ^ 3 * W ^ 3 by ring] 
    rw [h31]
    linear_combination 144 * h20
  have := cardano 1 b c d W (4 * (b ^ 2 - 3 * 1 * c) / W) s x one_ne_zero h3 (by field_simp) hV3
  rw [one_mul, one_mul] at this
  rw [this]
  congr 1
  congr 1
  all_goals field_simp; ring

private theorem re_eq_self {z : ℂ} (h : (starRingEnd ℂ) z = z) : ((z.re : ℝ) : ℂ) = z := conj_eq_iff_re.mp h

private theorem cubic_triple (a b c d f g h : ℝ) (ha : a ≠ 0)
    (hf : f = c * (1 / a) - b * (1 / a) * (b * (1 / a)) * (1 / 3))
    (hg : g = ((2 * (b * b * b) * (1 / a * (1 / a)) * (1 / a)) - (9 * b * c) * (1 / a * (1 / a)) + (27 * d * (1 / a)))
      * (1 / 27))
    (hh : h = 1 / 4 * (g * g) + (f * f * f) * (1 / 27))
    (hdisc : 18 * a * b * c * d - 4 * b ^ 3 * d + b ^ 2 * c ^ 2 - 4 * a * c ^ 3 - 27 * a ^ 2 * d ^ 2 = -(108 * a ^ 4) * h)
    (hz : h = 0 ∧ g = 0 ∧ f = 0) :
    ∃ x1 x2 x3 : ℂ, roots_cubic a b c d = .ok (x1, x2, x3) ∧
      (∀ x : ℂ, a * x ^ 3 + b * x ^ 2 + c * x + d = a * (x - x1) * (x - x2) * (x - x3)) ∧
      x1.im = 0 ∧ (h ≤ 0 ↔ x2.im = 0 ∧ x3.im = 0) := by
  have hac : (a : ℂ) ≠ 0 := by exact_mod_cast ha
  have h3 := sqrt3_c
  have key : ∀ r : ℝ, r ^ 3 = -(d / a) →
      ∀ x : ℂ, a * x ^ 3 + b * x ^ 2 + c * x + d = a * (x - r) * (x - r) * (x - r) := by
    intro r hr x
    have hc : c = b ^ 2 / (3 * a) := by
      have := hz.2.2; rw [hf] at this; field_simp at this ⊢; linear_combination this
    have hd : d = b ^ 3 / (27 * a ^ 2) := by
      have := hz.2.1; rw [hg, hc] at this; field_simp at this ⊢; linear_combination this / 3
    have hr' : r = -b / (3 * a) := by
      apply cube_inj; rw [hr, hd]; field_simp; norm_num
    have e1 : (c : ℂ) = b ^ 2 / (3 * a) := by exact_mod_cast hc
    have e2 : (d : ℂ) = b ^ 3 / (27 * a ^ 2) := by exact_mod_cast hd
    have e3 : (r : ℂ) = -b / (3 * a) := by rw [hr']; push_cast; ring
    rw [e1, e2, e3]; field_simp; ring
  have hnn : h ≤ 0 := hz.1.le
  by_cases hda : d / a ≥ 0
  · have hp : 0 ≤ d * (1 / a) := by rw [mul_one_div]; exact hda
    refine ⟨_, _, _, by
      simp only [roots_cubic, if_neg ha, pdiv_ok ha, Py.ok_bind, Py.pure_eq, ← hf, ← hg, ← hh]
      rw [if_pos (by exact hz), if_pos hda]
      simp only [ppow_ok' hp (by norm_num : (0:ℝ) ≤ 1/3), Py.ok_bind]
      rfl, ?_, ofReal_im _, ?_⟩
    · apply key; have := rpow_third_cube hp; rw [mul_one_div] at this ⊢; linear_combination -this
    · simp [hnn]
  · have hp : 0 < -d * (1 / a) := by rw [mul_one_div, neg_div]; linarith
    refine ⟨_, _, _, by
      simp only [roots_cubic, if_neg ha, pdiv_ok ha, Py.ok_bind, Py.pure_eq, ← hf, ← hg, ← hh]
      rw [if_pos (by exact hz), if_neg hda]
      simp only [ppow_ok hp, Py.ok_bind]
      rfl, ?_, ofReal_im _, ?_⟩
    · apply key; have := rpow_third_cube hp.le; rw [this]; field_simp
    · simp [hnn]

private theorem cubic_one (a b c d f g h : ℝ) (ha : a ≠ 0)
    (hf : f = c * (1 / a) - b * (1 / a) * (b * (1 / a)) * (1 / 3))
    (hg : g = ((2 * (b * b * b) * (1 / a * (1 / a)) * (1 / a)) - (9 * b * c) * (1 / a * (1 / a)) + (27 * d * (1 / a)))
      * (1 / 27))
    (hh : h = 1 / 4 * (g * g) + (f * f * f) * (1 / 27))
    (hdisc : 18 * a * b * c * d - 4 * b ^ 3 * d + b ^ 2 * c ^ 2 - 4 * a * c ^ 3 - 27 * a ^ 2 * d ^ 2 = -(108 * a ^ 4) * h)
    (hz : ¬(h = 0 ∧ g = 0 ∧ f = 0)) (hpos : h > 0) :
    ∃ x1 x2 x3 : ℂ, roots_cubic a b c d = .ok (x1, x2, x3) ∧
      (∀ x : ℂ, a * x ^ 3 + b * x ^ 2 + c * x + d = a * (x - x1) * (x - x2) * (x - x3)) ∧
      x1.im = 0 ∧ (h ≤ 0 ↔ x2.im = 0 ∧ x3.im = 0) := by
  have hac : (a : ℂ) ≠ 0 := by exact_mod_cast ha
  have h3 := sqrt3_c
  obtain ⟨S, hS, hS3⟩ := signedThird_spec (-(1 / 2) * g + √h)
  obtain ⟨U, hU, hU3⟩ := signedThird_spec (-(1 / 2 * g) - √h)
  have hs := Real.mul_self_sqrt hpos.le
  have hSU : S * U = -f / 3 := by
    apply cube_inj
    rw [mul_pow, hS3, hU3]
    have hf3 : f * f * f * (1 / 27) = h - 1 / 4 * (g * g) := by rw [hh]; ring
    linear_combination -hs + hf3
  have hSU3 : S ^ 3 + U ^ 3 = -g := by rw [hS3, hU3]; ring
  refine ⟨_, _, _, by
    simp only [roots_cubic, if_neg ha, pdiv_ok ha, Py.ok_bind, Py.pure_eq, ← hf, ← hg, ← hh]
    rw [if_neg (by exact hz), if_pos (by exact hpos)]
    simp only [psqrt_ok hpos.le, hS, hU, Py.ok_bind]
    rfl, ?_, ofReal_im _, ?_⟩
  · intro x
    have c1 : ((6 * a * S : ℝ) : ℂ) * ((6 * a * U : ℝ) : ℂ) = 4 * (b ^ 2 - 3 * a * c) := by
      have : (6 * a * S) * (6 * a * U) = 4 * (b ^ 2 - 3 * a * c) := by
        have : (6 * a * S) * (6 * a * U) = 36 * a ^ 2 * (S * U) := by ring
        rw [this, hSU, hf]; field_simp; ring
      exact_mod_cast this
    have c2 : ((6 * a * S : ℝ) : ℂ) ^ 3 + ((6 * a * U : ℝ) : ℂ) ^ 3
        = 2 * (36 * a * b * c - 108 * a ^ 2 * d - 8 * b ^ 3) := by
      have : (6 * a * S) ^ 3 + (6 * a * U) ^ 3 = 2 * (36 * a * b * c - 108 * a ^ 2 * d - 8 * b ^ 3) := by
        have : (6 * a * S) ^ 3 + (6 * a * U) ^ 3 = 216 * a ^ 3 * (S ^ 3 + U ^ 3) := by ring
        rw [this, hSU3, hg]; field_simp; ring
      exact_mod_cast this
    rw [cardano a b c d _ _ _ x hac h3 c1 c2]
    push_cast
    congr 1
    congr 1
    all_goals field_simp
    all_goals try ring
  · skip
    constructor
    · intro h'; linarith
    · rintro ⟨h1, -⟩
      exfalso
      simp at h1
      have : S = U := by linarith
      rw [this] at hS3
      have h0 : √h = 0 := by linarith
      have := Real.sqrt_pos.mpr hpos
      linarith

private theorem cubic_cplx (a b c d f g h : ℝ) (ha : a ≠ 0)
    (hf : f = c * (1 / a) - b * (1 / a) * (b * (1 / a)) * (1 / 3))
    (hg : g = ((2 * (b * b * b) * (1 / a * (1 / a)) * (1 / a)) - (9 * b * c) * (1 / a * (1 / a)) + (27 * d * (1 / a)))
      * (1 / 27))
    (hh : h = 1 / 4 * (g * g) + (f * f * f) * (1 / 27))
    (hdisc : 18 * a * b * c * d - 4 * b ^ 3 * d + b ^ 2 * c ^ 2 - 4 * a * c ^ 3 - 27 * a ^ 2 * d ^ 2 = -(108 * a ^ 4) * h)
    (hz : ¬(h = 0 ∧ g = 0 ∧ f = 0)) (hpos : ¬ h > 0) (hle : h ≤ 0)
    (hch : |(-18 * a * b * c * d + 4 * a * (c * c) * c + 4 * (b * b * b) * d - b * b * (c * c) + 27 * (a * a) * (d * d))| > 1e-12 ∨ |b + 1| < 1e-7) :
    ∃ x1 x2 x3 : ℂ, roots_cubic a b c d = .ok (x1, x2, x3) ∧
      (∀ x : ℂ, a * x ^ 3 + b * x ^ 2 + c * x + d = a * (x - x1) * (x - x2) * (x - x3)) ∧
      x1.im = 0 ∧ (h ≤ 0 ↔ x2.im = 0 ∧ x3.im = 0) := by
  have hac : (a : ℂ) ≠ 0 := by exact_mod_cast ha
  have h3 := sqrt3_c
  set ct := -18 * a * b * c * d + 4 * a * (c * c) * c + 4 * (b * b * b) * d - b * b * (c * c)
    + 27 * (a * a) * (d * d) with hct
  have hct0 : ct ≤ 0 := by
    have : ct = 108 * a ^ 4 * h := by rw [hct]; linear_combination -hdisc
    rw [this]; have : 0 < 108 * a ^ 4 := by positivity
    nlinarith
  have hcs := csqrt_neg_re hct0
  have hct2 : √(-ct) * √(-ct) = -ct := Real.mul_self_sqrt (by linarith)
  set t := √(-ct) with ht
  set A := 36 * a * b * c - 108 * a ^ 2 * d - 8 * b ^ 3 with hA
  set Z : ℂ := (A : ℂ) + (12 * √3 * a * t : ℝ) * I with hZ
  have hZeq : ((36 * c * b * a : ℝ) : ℂ) + 12 * (√3 : ℝ) * csqrt ct * a - (108 * d * (a * a) : ℝ) - (8 * (b * b * b) : ℝ)
      = Z := by
    rw [hcs, hZ, hA]; push_cast; ring
  set W := cthird Z with hW
  have hW3 : W ^ 3 = Z := cthird_pow Z
  have hsq3 : √3 * √3 = (3 : ℝ) := Real.mul_self_sqrt (by norm_num)
  -- |W|² = 4(b² - 3ac)
  have hns : normSq W = 4 * (b ^ 2 - 3 * a * c) := by
    apply cube_inj
    rw [← map_pow, hW3, normSq_apply]
    have hre : Z.re = A := by simp [hZ]
    have him : Z.im = 12 * √3 * a * t := by simp [hZ]
    rw [hre, him]
    have : 12 * √3 * a * t * (12 * √3 * a * t) = 144 * a ^ 2 * (√3 * √3) * (t * t) := by ring
    rw [this, hsq3, hct2, hct, hA]
    ring
  have hWne : W ≠ 0 := by
    intro h0
    apply hz
    have hΔ : b ^ 2 - 3 * a * c = 0 := by
      rw [h0] at hns; simp at hns; linarith
    have hf0 : f = 0 := by
      rw [hf]; field_simp; linear_combination -hΔ
    have hh' : h = 1 / 4 * (g * g) := by rw [hh, hf0]; ring
    have hg0 : g = 0 := by
      have : g * g ≤ 0 := by rw [hh'] at hle; linarith
      nlinarith [mul_self_nonneg g, mul_self_eq_zero.mp (le_antisymm this (mul_self_nonneg g))]
    exact ⟨by rw [hh', hg0]; ring, hg0, hf0⟩
  have hconj : (starRingEnd ℂ) W = 4 * (b ^ 2 - 3 * a * c) / W := by
    field_simp
    rw [mul_comm, mul_conj, hns]; push_cast; ring
  have c1 : W * (starRingEnd ℂ) W = 4 * (b ^ 2 - 3 * a * c) := by rw [hconj]; field_simp
  have c2 : W ^ 3 + ((starRingEnd ℂ) W) ^ 3 = 2 * (36 * a * b * c - 108 * a ^ 2 * d - 8 * b ^ 3) := by
    rw [← map_pow, hW3, add_conj]
    have : Z.re = A := by simp [hZ]
    rw [this, hA]; push_cast; ring
  have r1 : ((((W * ((1 / a : ℝ) : ℂ) * (1 / 6) - 2 / 3 * ((3 * a * c - b * b : ℝ) : ℂ) * (((1 / a : ℝ) : ℂ) / W)
      - (b * (1 / a) * (1 / 3) : ℝ)).re : ℝ) : ℂ))
      = (W + (starRingEnd ℂ) W) / (6 * a) - b / (3 * a) := by
    have e : W * ((1 / a : ℝ) : ℂ) * (1 / 6) - 2 / 3 * ((3 * a * c - b * b : ℝ) : ℂ) * (((1 / a : ℝ) : ℂ) / W)
      - (b * (1 / a) * (1 / 3) : ℝ) = (W + (starRingEnd ℂ) W) / (6 * a) - b / (3 * a) := by
      rw [hconj]; push_cast; field_simp; ring
    rw [e]; apply re_eq_self
    simp only [map_sub, map_add, map_neg, map_div₀, map_mul, conj_conj, conj_ofReal, conj_I, map_ofNat]; ring
  have t50e : -(W * ((1 / a : ℝ) : ℂ)) * (1 / 12) + ((3 * a * c - b * b : ℝ) : ℂ) * (((1 / a : ℝ) : ℂ) / W) * (1 / 3)
      - (b * (1 / a) * (1 / 3) : ℝ) = -(W + (starRingEnd ℂ) W) / (12 * a) - b / (3 * a) := by
    rw [hconj]; push_cast; field_simp; ring
  have t51e : 1 / 2 * I * (√3 : ℝ) * (W * ((1 / a : ℝ) : ℂ) * (1 / 6)
      + 2 / 3 * (((3 * a * c - b * b : ℝ) : ℂ) * (((1 / a : ℝ) : ℂ) / W)))
      = I * (√3 : ℝ) * (W - (starRingEnd ℂ) W) / (12 * a) := by
    rw [hconj]; push_cast; field_simp; ring
  have r2 : ((((-(W + (starRingEnd ℂ) W) / (12 * a) - b / (3 * a)) + I * (√3 : ℝ) * (W - (starRingEnd ℂ) W) / (12 * a)).re
      : ℝ) : ℂ) = -(W + (starRingEnd ℂ) W) / (12 * a) + I * (√3 : ℝ) * (W - (starRingEnd ℂ) W) / (12 * a) - b / (3 * a) := by
    rw [re_eq_self]
    · ring
    · simp only [map_sub, map_add, map_neg, map_div₀, map_mul, conj_conj, conj_ofReal, conj_I, map_ofNat]; ring
  have r3 : ((((-(W + (starRingEnd ℂ) W) / (12 * a) - b / (3 * a)) - I * (√3 : ℝ) * (W - (starRingEnd ℂ) W) / (12 * a)).re
      : ℝ) : ℂ) = -(W + (starRingEnd ℂ) W) / (12 * a) - I * (√3 : ℝ) * (W - (starRingEnd ℂ) W) / (12 * a) - b / (3 * a) := by
    rw [re_eq_self]
    · ring
    · simp only [map_sub, map_add, map_neg, map_div₀, map_mul, conj_conj, conj_ofReal, conj_I, map_ofNat]; ring
  refine ⟨_, _, _, by
    simp only [roots_cubic, if_neg ha, pdiv_ok ha, Py.ok_bind, Py.pure_eq, ← hf, ← hg, ← hh]
    rw [if_neg (by exact hz), if_neg (by exact hpos), if_pos (by exact hch)]
    simp only [← hct, hZeq, ← hW, pdiv_ok hWne, Py.ok_bind, t50e, t51e, r1, r2, r3]
    rfl, ?_, ?_, ?_⟩
  · intro x
    rw [cardano a b c d W _ _ x hac h3 c1 c2]
  · rw [← r1]; exact ofReal_im _
  · rw [← r2, ← r3]; simp only [hle, ofReal_im, and_self]

private theorem cubic_trig (a b c d f g h : ℝ) (ha : a ≠ 0)
    (hf : f = c * (1 / a) - b * (1 / a) * (b * (1 / a)) * (1 / 3))
    (hg : g = ((2 * (b * b * b) * (1 / a * (1 / a)) * (1 / a)) - (9 * b * c) * (1 / a * (1 / a)) + (27 * d * (1 / a)))
      * (1 / 27))
    (hh : h = 1 / 4 * (g * g) + (f * f * f) * (1 / 27))
    (hdisc : 18 * a * b * c * d - 4 * b ^ 3 * d + b ^ 2 * c ^ 2 - 4 * a * c ^ 3 - 27 * a ^ 2 * d ^ 2 = -(108 * a ^ 4) * h)
    (hz : ¬(h = 0 ∧ g = 0 ∧ f = 0)) (hpos : ¬ h > 0) (hle : h ≤ 0) (hsmall : 0 ≤ g * g * (1 / 4) - h)
    (hch : ¬(|(-18 * a * b * c * d + 4 * a * (c * c) * c + 4 * (b * b * b) * d - b * b * (c * c) + 27 * (a * a) * (d * d))| > 1e-12 ∨ |b + 1| < 1e-7)) :
    ∃ x1 x2 x3 : ℂ, roots_cubic a b c d = .ok (x1, x2, x3) ∧
      (∀ x : ℂ, a * x ^ 3 + b * x ^ 2 + c * x + d = a * (x - x1) * (x - x2) * (x - x3)) ∧
      x1.im = 0 ∧ (h ≤ 0 ↔ x2.im = 0 ∧ x3.im = 0) := by
  have hac : (a : ℂ) ≠ 0 := by exact_mod_cast ha
  have h3 := sqrt3_c
  have hi0 : 0 < g * g * (1 / 4) - h := by
    rcases hsmall.lt_or_eq with h' | h'
    · exact h'
    · exfalso; apply hz
      have h1 : h = 0 := by nlinarith [mul_self_nonneg g]
      have h2 : g * g = 0 := by nlinarith
      have h3 : g = 0 := by simpa using h2
      have h4 : f * f * f = 0 := by rw [h3, h1] at hh; linarith
      have h5 : f = 0 := by simpa using h4
      exact ⟨h1, h3, h5⟩
  set i := √(g * g * (1 / 4) - h) with hi
  have hipos : 0 < i := Real.sqrt_pos.mpr hi0
  have hii : i * i = g * g * (1 / 4) - h := Real.mul_self_sqrt hsmall
  have hii' : i * i = -(f ^ 3) / 27 := by rw [hii, hh]; ring
  have hq1 : -1 ≤ -(1 / 2) * g / i := by
    rw [le_div_iff₀ hipos]
    nlinarith [abs_le_of_sq_le_sq' (show (1 / 2 * g) ^ 2 ≤ i ^ 2 by nlinarith) hipos.le |>.2]
  have hq2 : -(1 / 2) * g / i ≤ 1 := by
    rw [div_le_iff₀ hipos]
    nlinarith [abs_le_of_sq_le_sq' (show (1 / 2 * g) ^ 2 ≤ i ^ 2 by nlinarith) hipos.le |>.1]
  set k := Real.arccos (-(1 / 2) * g / i) with hk
  have hcos : Real.cos k = -(1 / 2) * g / i := Real.cos_arccos hq1 hq2
  set j := i ^ (1 / 3 : ℝ) with hj
  have hj3 : j ^ 3 = i := rpow_third_cube hipos.le
  have hj2 : j ^ 2 = -f / 3 := by
    apply cube_inj
    rw [← pow_mul, show 2 * 3 = 3 * 2 by norm_num, pow_mul, hj3, sq, hii']; ring
  have hM := Real.cos_three_mul (k * (1 / 3))
  rw [show 3 * (k * (1 / 3)) = k by ring, hcos] at hM
  have hpyth := Real.sin_sq_add_cos_sq (k * (1 / 3))
  refine ⟨_, _, _, by
    simp only [roots_cubic, if_neg ha, pdiv_ok ha, Py.ok_bind, Py.pure_eq, ← hf, ← hg, ← hh]
    rw [if_neg (by exact hz), if_neg (by exact hpos), if_neg (by exact hch)]
    simp only [psqrt_ok hsmall, Py.ok_bind, ← hi, pdiv_ok hipos.ne', ppow_ok hipos,
      pacos_ok hq1 hq2]
    rfl, ?_, ofReal_im _, ?_⟩
  · rw [← hj, ← hk]
    generalize Real.cos (k * (1 / 3)) = M at *
    generalize Real.sin (k * (1 / 3)) = N at *
    have hsq3 : √3 * √3 = (3 : ℝ) := Real.mul_self_sqrt (by norm_num)
    have hM' : 4 * (j * M) ^ 3 - 3 * j ^ 2 * (j * M) = -(1 / 2) * g := by
      have : 4 * (j * M) ^ 3 - 3 * j ^ 2 * (j * M) = j ^ 3 * (4 * M ^ 3 - 3 * M) := by ring
      rw [this, ← hM, hj3]; field_simp
    have hP : (j * N) ^ 2 = j ^ 2 - (j * M) ^ 2 := by linear_combination j ^ 2 * hpyth
    -- depressed cubic identity
    have hc' : c = a * (f + (b / a) ^ 2 / 3) := by rw [hf]; field_simp; ring
    have hd' : d = a * (g - 2 * b ^ 3 / a ^ 3 / 27 + b * c / a ^ 2 / 3) := by rw [hg]; field_simp; ring
    have hfj : f = -3 * j ^ 2 := by linear_combination 3 * hj2
    have hgj : g = -2 * (4 * (j * M) ^ 3 - 3 * j ^ 2 * (j * M)) := by linear_combination 2 * hM'
    have e1 : (c : ℂ) = a * (-3 * j ^ 2 + (b / a) ^ 2 / 3) := by
      rw [hc', hfj]; push_cast; ring
    have e2 : (d : ℂ) = a * (-2 * (4 * (j * M) ^ 3 - 3 * j ^ 2 * (j * M)) - 2 * b ^ 3 / a ^ 3 / 27 + b * c / a ^ 2 / 3) := by
      have : d = a * (-2 * (4 * (j * M) ^ 3 - 3 * j ^ 2 * (j * M)) - 2 * b ^ 3 / a ^ 3 / 27 + b * c / a ^ 2 / 3) := by
        rw [← hgj]; exact hd'
      exact_mod_cast this
    have hPc : ((j : ℂ) * N) ^ 2 = j ^ 2 - (j * M) ^ 2 := by exact_mod_cast hP
    intro x
    rw [e2, e1]
    push_cast
    have h3' : ((√3 : ℝ) : ℂ) ^ 2 = 3 := by rw [sq]; exact h3
    generalize ((√3 : ℝ) : ℂ) = s at *
    have key : ∀ y m n : ℂ, n ^ 2 = j ^ 2 - m ^ 2 →
        y ^ 3 - 3 * j ^ 2 * y - 2 * (4 * m ^ 3 - 3 * j ^ 2 * m)
          = (y - 2 * m) * (y + (m + s * n)) * (y + (m - s * n)) := by
      intro y m n hn
      linear_combination (y - 2 * m) * (s ^ 2 * hn + (j ^ 2 - m ^ 2) * h3')
    have := key (x + b / a * (1 / 3)) (j * M) (j * N) hPc
    have e4 : (a : ℂ) * (x - (2 * j * M + -(b * (1 / a)) * (1 / 3))) * (x - (-(b * (1 / a)) * (1 / 3) - j * (M + s * N)))
        * (x - (-(b * (1 / a)) * (1 / 3) - j * (M - s * N)))
        = a * ((x + b / a * (1 / 3) - 2 * (j * M)) * (x + b / a * (1 / 3) + (j * M + s * (j * N))) *
          (x + b / a * (1 / 3) + (j * M - s * (j * N)))) := by ring
    rw [e4, ← this]
    field_simp
    ring
  · simp only [hle, ofReal_im, and_self]


/-- C14: for `a ≠ 0` the three numbers returned by `roots_cubic` are exactly the complex roots with multiplicity; no
input makes it raise. Three real numbers are returned when the cubic's discriminant is nonnegative, otherwise exactly
the first one is real. -/
theorem C14_roots_cubic (a b c d : ℝ) (ha : a ≠ 0) :
    ∃ x1 x2 x3 : ℂ, roots_cubic a b c d = .ok (x1, x2, x3) ∧
      (∀ x : ℂ, a * x ^ 3 + b * x ^ 2 + c * x + d = a * (x - x1) * (x - x2) * (x - x3)) ∧
      x1.im = 0 ∧
      (0 ≤ 18 * a * b * c * d - 4 * b ^ 3 * d + b ^ 2 * c ^ 2 - 4 * a * c ^ 3 - 27 * a ^ 2 * d ^ 2 ↔
        x2.im = 0 ∧ x3.im = 0) := by
  set f := c * (1 / a) - b * (1 / a) * (b * (1 / a)) * (1 / 3) with hf
  set g := ((2 * (b * b * b) * (1 / a * (1 / a)) * (1 / a)) - (9 * b * c) * (1 / a * (1 / a)) + (27 * d * (1 / a)))
    * (1 / 27) with hg
  set h := 1 / 4 * (g * g) + (f * f * f) * (1 / 27) with hh
  have hdisc : 18 * a * b * c * d - 4 * b ^ 3 * d + b ^ 2 * c ^ 2 - 4 * a * c ^ 3 - 27 * a ^ 2 * d ^ 2
      = -(108 * a ^ 4) * h := by
    rw [hh, hg, hf]; field_simp; ring
  have hdisc_iff : 0 ≤ 18 * a * b * c * d - 4 * b ^ 3 * d + b ^ 2 * c ^ 2 - 4 * a * c ^ 3 - 27 * a ^ 2 * d ^ 2 ↔ h ≤ 0 := by
    rw [hdisc]
    have : 0 < 108 * a ^ 4 := by positivity
    constructor
    · intro h'; by_contra hc; push Not at hc; nlinarith [mul_pos this hc]
    · intro h'; nlinarith
  rw [hdisc_iff]
  by_cases hz : h = 0 ∧ g = 0 ∧ f = 0
  · exact cubic_triple a b c d f g h ha hf hg hh hdisc hz
  by_cases hpos : h > 0
  · exact cubic_one a b c d f g h ha hf hg hh hdisc hz hpos
  have hle : h ≤ 0 := not_lt.mp hpos
  by_cases hch : |(-18 * a * b * c * d + 4 * a * (c * c) * c + 4 * (b * b * b) * d - b * b * (c * c)
      + 27 * (a * a) * (d * d))| > 1e-12 ∨ |b + 1| < 1e-7
  · exact cubic_cplx a b c d f g h ha hf hg hh hdisc hz hpos hle hch
  · exact cubic_trig a b c d f g h ha hf hg hh hdisc hz hpos hle (by nlinarith [mul_self_nonneg g]) hch

example : (0 : ℝ) ≤ 18 * 1 * (-6) * 11 * (-6) - 4 * (-6) ^ 3 * (-6) + (-6) ^ 2 * 11 ^ 2 - 4 * 1 * 11 ^ 3
    - 27 * 1 ^ 2 * (-6) ^ 2 := by norm_num

/-- C14: a vanishing leading coefficient is handled: the roots of the remaining quadratic (the first one twice), the root
of the remaining linear equation three times, ZeroDivisionError when nothing is left. -/
theorem C14_roots_cubic_degenerate (b c d : ℝ) :
    (b ≠ 0 → ∃ x1 x2 : ℂ, roots_cubic 0 b c d = .ok (x1, x1, x2) ∧ roots_quadratic b c d = .ok (x1, x2)) ∧
    (b = 0 → c ≠ 0 → roots_cubic 0 b c d = .ok (((-d / c : ℝ) : ℂ), ((-d / c : ℝ) : ℂ), ((-d / c : ℝ) : ℂ))) ∧
    (b = 0 → c = 0 → roots_cubic 0 b c d = .error .zeroDivisionError) := by
  refine ⟨fun hb => ?_, fun hb hc => by simp [roots_cubic, hb, pdiv_ok hc], fun hb hc => by simp [roots_cubic, hb, hc]⟩
  by_cases hD : c * c - 4 * b * d < 0
  · have hD' : 0 ≤ -(c * c - 4 * b * d) := by linarith
    refine ⟨_, _, ?_, by
      simp only [roots_quadratic, if_neg hb, pdiv_ok hb, Py.ok_bind, if_pos hD, psqrt_ok hD', Py.pure_eq]; rfl⟩
    simp only [roots_cubic, if_true, if_neg hb, pdiv_ok hb, Py.ok_bind, if_pos hD, psqrt_ok hD', Py.pure_eq]
  · have hD' := not_lt.mp hD
    refine ⟨_, _, ?_, by
      simp only [roots_quadratic, if_neg hb, pdiv_ok hb, Py.ok_bind, if_neg hD, psqrt_ok hD', Py.pure_eq]; rfl⟩
    simp only [roots_cubic, if_true, if_neg hb, pdiv_ok hb, Py.ok_bind, if_neg hD, psqrt_ok hD', Py.pure_eq]

end Verif
