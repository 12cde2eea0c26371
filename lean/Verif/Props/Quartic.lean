import Verif.Model.Roots
import Verif.Props.Roots
import Mathlib.Tactic

/-! C108: quartic roots (`fluids/numerics/polynomial_roots.py`). -/

namespace Verif.Roots
open Complex

/-- Ferrari: a depressed quartic whose resolvent has the root `s²` factors into two quadratics. -/
private theorem ferrari (p q r s t : ℂ) (hs : s ≠ 0) (hres : s ^ 6 + 2 * p * s ^ 4 + (p ^ 2 - 4 * r) * s ^ 2 - q ^ 2 = 0) :
    t ^ 4 + p * t ^ 2 + q * t + r = (t ^ 2 + s * t + ((p + s ^ 2) / 2 - q / (2 * s))) * (t ^ 2 - s * t + ((p + s ^ 2) / 2 + q / (2 * s))) := by
  field_simp
  linear_combination (-1) * hres

/-- C108: when it returns, `roots_quartic` returns the four roots of the (complex) quartic with multiplicity. -/
theorem C108_roots_quartic (a b c d e : ℂ) {r1 r2 r3 r4 : ℂ} (h : roots_quartic a b c d e = .ok (r1, r2, r3, r4)) (x : ℂ) :
    a * x ^ 4 + b * x ^ 3 + c * x ^ 2 + d * x + e = a * (x - r1) * (x - r2) * (x - r3) * (x - r4) := by
  by_cases ha : a = 0
  · simp [roots_quartic, ha] at h
  unfold roots_quartic at h
  obtain ⟨x0, hx0, h⟩ := Py.bind_eq_ok.1 h
  rw [pdiv_ok ha] at hx0
  obtain rfl := Except.ok.inj hx0
  -- the depressed quartic
  extract_lets x1 x2 x3 x4 x5 x6 x6_2 x7 x8 x9 x10 x11 x12 x13 x14 x15 x16 x19 x20 x22 x25 x27 x28 at h
  obtain ⟨_, -, h⟩ := Py.bind_eq_ok.1 h
  obtain ⟨x29, hx29, h⟩ := Py.bind_eq_ok.1 h
  extract_lets x30 x31 x32 x33 x38 at h
  obtain ⟨x34, hx34, h⟩ := Py.bind_eq_ok.1 h
  extract_lets x35 x39 at h
  have h := Except.ok.inj h
  simp only [Prod.mk.injEq] at h
  obtain ⟨rfl, rfl, rfl, rfl⟩ := h
  have hu : x27 ≠ 0 := by intro h0; rw [h0, pdiv_zero] at hx29; cases hx29
  have hs : x30 ≠ 0 := by intro h0; rw [h0, pdiv_zero] at hx34; cases hx34
  rw [pdiv_ok hu] at hx29
  rw [pdiv_ok hs] at hx34
  have hx29 := (Except.ok.inj hx29).symm
  have hx34 := (Except.ok.inj hx34).symm
  have hu3 : x27 ^ 3 = 1 / 16 * x10 - x13 * (1 / 6) + x7 / 216 + csqrt (1 / 4 * x14 * x14 + 1 / 27 * x25 * x25 * x25) := cthird_pow _
  have hw2 := csqrt_sq (1 / 4 * x14 * x14 + 1 / 27 * x25 * x25 * x25)
  generalize csqrt (1 / 4 * x14 * x14 + 1 / 27 * x25 * x25 * x25) = w at hu3 hw2
  have hs2 := csqrt_sq (x28 - x29 + x5)
  change x30 * x30 = _ at hs2
  have h35 := csqrt_sq (x33 + x34)
  have h39 := csqrt_sq (x33 - x34)
  -- names of Ferrari's method
  obtain ⟨p, hp⟩ : ∃ p, p = x6 := ⟨_, rfl⟩
  obtain ⟨q, hq⟩ : ∃ q, q = x8 + x9 := ⟨_, rfl⟩
  obtain ⟨r, hr⟩ : ∃ r, r = x11 - x12 := ⟨_, rfl⟩
  have e5 : x5 = -(2 / 3) * p := by rw [hp]; simp only [x5, x6]; ring
  have e14 : x14 = -(1 / 8) * q ^ 2 + p * r / 3 - p ^ 3 / 108 := by rw [hp, hq, hr]; simp only [x14, x10, x13, x7, x6_2]; ring
  have e25 : x25 = -r - p ^ 2 / 12 := by rw [hp, hr]; simp only [x25, x6_2]; ring
  have e33 : x33 = -(4 / 3) * p - 2 * x27 + x29 := by rw [hp]; simp only [x33, x19, x20, x28, x6]; ring
  have eu3 : x27 ^ 3 = -x14 / 2 + w := by rw [hu3, e14, hp, hq, hr]; simp only [x10, x13, x7, x6_2]; ring
  have e22 : x22 = 2 * q := by rw [hq]; simp only [x22]; ring
  have e28 : x28 = 2 * x27 := rfl
  rw [e22] at hx34
  rw [e28, e5] at hs2
  -- Cardano: v = x27 - x25/(3 x27) solves v³ + x25 v + x14 = 0
  have hv : (x27 - x25 / (3 * x27)) ^ 3 + x25 * (x27 - x25 / (3 * x27)) + x14 = 0 := by
    have : x27 ^ 6 + x14 * x27 ^ 3 - x25 ^ 3 / 27 = 0 := by
      rw [show x27 ^ 6 = x27 ^ 3 * x27 ^ 3 by ring, eu3]
      linear_combination hw2
    field_simp
    linear_combination 27 * this
  have hs2' : x30 ^ 2 = 2 * (x27 - x25 / (3 * x27)) - 2 / 3 * p := by
    rw [sq, hs2, hx29]; field_simp; ring
  have hres : x30 ^ 6 + 2 * p * x30 ^ 4 + (p ^ 2 - 4 * r) * x30 ^ 2 - q ^ 2 = 0 := by
    rw [show x30 ^ 6 = (x30 ^ 2) ^ 3 by ring, show x30 ^ 4 = (x30 ^ 2) ^ 2 by ring, hs2']
    rw [e14] at hv
    rw [e25] at hv ⊢
    linear_combination 8 * hv
  have hdep : a * x ^ 4 + b * x ^ 3 + c * x ^ 2 + d * x + e = a * ((x - x2) ^ 4 + p * (x - x2) ^ 2 + q * (x - x2) + r) := by
    rw [hp, hq, hr]
    simp only [x6, x8, x9, x11, x12, x2, x1, x3, x4]
    field_simp
    ring
  rw [hdep, ferrari p q r x30 (x - x2) hs hres]
  have k1 : (x - (x32 - x35)) * (x - (x32 + x35)) = (x - x2) ^ 2 + x30 * (x - x2) + ((p + x30 ^ 2) / 2 - q / (2 * x30)) := by
    have : x35 ^ 2 = (x33 + x34) / 4 := by simp only [x35]; rw [mul_pow, sq (csqrt _), h35]; ring
    have e : (x - (x32 - x35)) * (x - (x32 + x35)) = (x - x32) ^ 2 - x35 ^ 2 := by ring
    rw [e, this, e33, hx34, show x32 = x2 - 1 / 2 * x30 from rfl]
    have hs2'' : x30 ^ 2 = 2 * x27 - x29 - 2 / 3 * p := by rw [sq, hs2]; ring
    field_simp
    linear_combination (-12 * x30) * hs2''
  have k2 : (x - (x38 - x39)) * (x - (x38 + x39)) = (x - x2) ^ 2 - x30 * (x - x2) + ((p + x30 ^ 2) / 2 + q / (2 * x30)) := by
    have : x39 ^ 2 = (x33 - x34) / 4 := by simp only [x39]; rw [mul_pow, sq (csqrt _), h39]; ring
    have e : (x - (x38 - x39)) * (x - (x38 + x39)) = (x - x38) ^ 2 - x39 ^ 2 := by ring
    rw [e, this, e33, hx34, show x38 = x2 + 1 / 2 * x30 from rfl]
    have hs2'' : x30 ^ 2 = 2 * x27 - x29 - 2 / 3 * p := by rw [sq, hs2]; ring
    field_simp
    linear_combination (-12 * x30) * hs2''
  rw [← k1, ← k2]
  ring

/-- C108: whatever else happens it raises ZeroDivisionError, never anything else. -/
theorem C108_quartic_error (a b c d e : ℂ) {err : PyErr} (h : roots_quartic a b c d e = .error err) : err = .zeroDivisionError := by
  have pd : ∀ {x y : ℂ} {er}, pdiv x y = .error er → er = .zeroDivisionError := by
    intro x y er h
    by_cases hy : y = 0
    · rw [hy, pdiv_zero] at h; exact (Except.error.inj h).symm
    · rw [pdiv_ok hy] at h; cases h
  have bd : ∀ {α β : Type} {m : Py α} {f : α → Py β} {er}, (m >>= f) = .error er → m = .error er ∨ ∃ v, m = .ok v ∧ f v = .error er := by
    intro α β m f er h
    cases m with
    | error e' => left; rw [Py.error_bind] at h; exact congrArg Except.error (Except.error.inj h)
    | ok v => right; exact ⟨v, rfl, h⟩
  unfold roots_quartic at h
  rcases bd h with h | ⟨_, -, h⟩
  · exact pd h
  extract_lets x1 x2 x3 x4 x5 x6 x6_2 x7 x8 x9 x10 x11 x12 x13 x14 x15 x16 x19 x20 x22 x25 x27 x28 at h
  rcases bd h with h | ⟨_, -, h⟩
  · exact pd h
  rcases bd h with h | ⟨_, -, h⟩
  · exact pd h
  extract_lets x30 x31 x32 x33 x38 at h
  rcases bd h with h | ⟨_, -, h⟩
  · exact pd h
  cases h

lemma csqrt_zero : csqrt 0 = 0 := by unfold csqrt; rw [Complex.zero_cpow (by norm_num)]
lemma cthird_zero : cthird 0 = 0 := by unfold cthird; rw [Complex.zero_cpow (by norm_num)]

/-- C108: a quartic `a (x - r)^4 + k` (four equal roots shifted: `x^4 - 1`, `x^4 + 1`, `x^4` ...) is never solved: ZeroDivisionError, although it has four roots. -/
theorem C108_quartic_pure (a r k : ℂ) (ha : a ≠ 0) :
    roots_quartic a (-4 * a * r) (6 * a * r ^ 2) (-4 * a * r ^ 3) (a * r ^ 4 + k) = .error .zeroDivisionError := by
  unfold roots_quartic
  rw [pdiv_ok ha, Py.ok_bind]
  extract_lets x1 x2 x3 x4 x5 x6 x6_2 x7 x8 x9 x10 x11 x12 x13 x14 x15 x16 x19 x20 x22 x25 x27 x28
  have e6 : x6 = 0 := by simp only [x6, x3, x4]; field_simp; ring
  have e5 : x5 = 0 := by simp only [x5, x3, x4]; field_simp; ring
  have e89 : x8 + x9 = 0 := by simp only [x8, x9, x1, x3, x4]; field_simp; ring
  have e14 : x14 = 0 := by simp only [x14, x13, x10, x7, x6_2, e6, e89]; ring
  have e16 : x16 = 0 := by simp only [x16, x15, e14, e5, cthird_zero]; rw [mul_zero, neg_zero, add_zero, csqrt_zero]
  rw [e16, pdiv_zero]
  rfl

/-- C108: a quartic `a (y^4 + p y^2 + q y + r)` in `y = x - m` is solved whenever `q ≠ 0`, `p² + 12 r ≠ 0` and `2 p³ + 24 p r ≠ 9 q²`. -/
theorem C108_quartic_defined (a m p q r : ℂ) (ha : a ≠ 0) (hq : q ≠ 0) (h1 : p ^ 2 + 12 * r ≠ 0) (h2 : 2 * p ^ 3 + 24 * p * r - 9 * q ^ 2 ≠ 0) :
    ∃ s, roots_quartic a (-4 * a * m) (a * (6 * m ^ 2 + p)) (a * (-4 * m ^ 3 - 2 * p * m + q)) (a * (m ^ 4 + p * m ^ 2 - q * m + r)) = .ok s := by
  unfold roots_quartic
  rw [pdiv_ok ha, Py.ok_bind]
  extract_lets x1 x2 x3 x4 x5 x6 x6_2 x7 x8 x9 x10 x11 x12 x13 x14 x15 x16 x19 x20 x22 x25 x27 x28
  have e6 : x6 = p := by simp only [x6, x3, x4]; field_simp; ring
  have e5 : x5 = -(2 / 3) * p := by simp only [x5, x3, x4]; field_simp; ring
  have e89 : x8 + x9 = q := by simp only [x8, x9, x1, x3, x4]; field_simp; ring
  have er : x11 - x12 = r := by simp only [x11, x12, x8, x1, x3, x4]; field_simp; ring
  have e14 : x14 = -(1 / 8) * q ^ 2 + p * r / 3 - p ^ 3 / 108 := by simp only [x14, x13, x10, x7, x6_2, e6, e89, er]; ring
  have e25 : x25 = -r - p ^ 2 / 12 := by
    have : x25 = -(x11 - x12) - 1 / 12 * x6_2 := by simp only [x25]; ring
    rw [this, er]; simp only [x6_2, e6]; ring
  have h16 : x16 ≠ 0 := by
    intro h0
    have h := csqrt_sq (-x15 + x5)
    change x16 * x16 = _ at h
    rw [h0, e5] at h
    have h3 := cthird_pow x14
    have : cthird x14 = -(1 / 3) * p := by
      have : -(2 * cthird x14) + -(2 / 3) * p = 0 := by linear_combination -h
      linear_combination (-1 / 2) * this
    rw [this, e14] at h3
    apply h2
    linear_combination (-72) * h3
  rw [pdiv_ok h16, Py.ok_bind]
  have hu3 : x27 ^ 3 = -x14 / 2 + csqrt (1 / 4 * x14 * x14 + 1 / 27 * x25 * x25 * x25) := by
    have := cthird_pow (1 / 16 * x10 - x13 * (1 / 6) + x7 / 216 + csqrt (1 / 4 * x14 * x14 + 1 / 27 * x25 * x25 * x25))
    change x27 ^ 3 = _ at this
    rw [this]
    simp only [x14]
    ring
  have hw2 := csqrt_sq (1 / 4 * x14 * x14 + 1 / 27 * x25 * x25 * x25)
  generalize csqrt (1 / 4 * x14 * x14 + 1 / 27 * x25 * x25 * x25) = w at hu3 hw2
  have h25 : x25 ≠ 0 := by
    rw [e25]; intro h; apply h1; linear_combination (-12) * h
  have hu : x27 ≠ 0 := by
    intro h0
    rw [h0] at hu3
    have hw : w = x14 / 2 := by linear_combination -hu3
    rw [hw] at hw2
    have : x25 ^ 3 = 0 := by linear_combination (-27) * hw2
    exact h25 (pow_eq_zero_iff (by norm_num) |>.1 this)
  rw [pdiv_ok hu, Py.ok_bind]
  extract_lets x30 x31 x32 x33 x38
  have hs : x30 ≠ 0 := by
    intro h0
    have h := csqrt_sq (x28 - 2 / 3 * x25 / x27 + x5)
    change x30 * x30 = _ at h
    rw [h0, e5] at h
    have hv : (x27 - x25 / (3 * x27)) ^ 3 + x25 * (x27 - x25 / (3 * x27)) + x14 = 0 := by
      have : x27 ^ 6 + x14 * x27 ^ 3 - x25 ^ 3 / 27 = 0 := by
        rw [show x27 ^ 6 = x27 ^ 3 * x27 ^ 3 by ring, hu3]
        linear_combination hw2
      field_simp
      linear_combination 27 * this
    have hv2 : x27 - x25 / (3 * x27) = p / 3 := by
      have : 2 * (x27 - x25 / (3 * x27)) = 2 / 3 * p := by
        have e : 2 / 3 * x25 / x27 = 2 * (x25 / (3 * x27)) := by field_simp
        rw [e] at h
        simp only [x28] at h
        linear_combination -h
      linear_combination this / 2
    rw [hv2, e14, e25] at hv
    apply hq
    have : q ^ 2 = 0 := by linear_combination (-8) * hv
    exact pow_eq_zero_iff (by norm_num) |>.1 this
  rw [pdiv_ok hs, Py.ok_bind]
  exact ⟨_, rfl⟩

/-- `x^4 + 8 x + 1` is one of them. -/
example : ∃ s, roots_quartic 1 0 0 8 1 = .ok s := by
  have := C108_quartic_defined 1 0 0 8 1 one_ne_zero (by norm_num) (by norm_num) (by norm_num)
  norm_num at this
  obtain ⟨w, x, y, z, h⟩ := this
  exact ⟨_, h⟩

end Verif.Roots
