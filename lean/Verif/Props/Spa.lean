import Verif.Model.Spa
import Mathlib.Tactic.IntervalCases
import Mathlib.Tactic.NormNum
import Mathlib.Tactic.Linarith
import Mathlib.Tactic.FieldSimp
import Mathlib.Tactic.Positivity
import Mathlib.Algebra.Order.Archimedean.Real.Basic
import Mathlib.Data.Rat.Floor

/-!
# C123: the solar position algorithm
-/

namespace Verif.Props.Spa
open Verif Verif.Spa

/-! ### Specification: the Gregorian calendar -/

/-- leap years of the Gregorian calendar -/
def leap (y : ℤ) : Bool := y % 4 = 0 ∧ (y % 100 ≠ 0 ∨ y % 400 = 0)

/-- the length of a month -/
def daysIn (y m : ℤ) : ℤ := if m = 2 then (if leap y then 29 else 28) else if m = 4 ∨ m = 6 ∨ m = 9 ∨ m = 11 then 30 else 31

/-- a date: year, month, day -/
abbrev Date := ℤ × ℤ × ℤ

/-- the following date -/
def next (d : Date) : Date :=
  if d.2.2 < daysIn d.1 d.2.1 then (d.1, d.2.1, d.2.2 + 1)
  else if d.2.1 < 12 then (d.1, d.2.1 + 1, 1)
  else (d.1 + 1, 1, 1)

/-- dates of the calendar from the year 1 on -/
def valid (d : Date) : Prop := 1 ≤ d.1 ∧ 1 ≤ d.2.1 ∧ d.2.1 ≤ 12 ∧ 1 ≤ d.2.2 ∧ d.2.2 ≤ daysIn d.1 d.2.1

theorem next_valid {d : Date} (h : valid d) : valid (next d) := by
  obtain ⟨y, m, k⟩ := d
  obtain ⟨h1, h2, h3, h4, h5⟩ := h
  simp only at *
  unfold next
  simp only
  split_ifs with h h'
  · exact ⟨h1, h2, h3, by simp only; omega, by simp only; omega⟩
  · refine ⟨h1, by simp only; omega, by simp only; omega, by simp, ?_⟩
    simp only [daysIn]
    split_ifs <;> omega
  · refine ⟨by simp only; omega, by simp, by simp, by simp, ?_⟩
    simp [daysIn]

section
variable {K : Type _} [Field K] [LinearOrder K] [IsStrictOrderedRing K] [FloorRing K]

theorem pint_div {x : K} {a : ℤ} {b : ℕ} (hx : x = a / b) (ha : 0 ≤ a) (hb : 0 < b) : pint x = a / b := by
  have hb' : (0 : K) < b := by exact_mod_cast hb
  have h0 : 0 ≤ x := by rw [hx]; positivity
  unfold pint
  rw [if_pos h0, Int.floor_eq_iff, hx, le_div_iff₀ hb', div_lt_iff₀ hb']
  have h1 : (a / b) * b ≤ a := Int.ediv_mul_le a (by omega)
  have h2 : a < (a / b + 1) * b := Int.lt_ediv_add_one_mul_self a (by omega)
  exact ⟨by exact_mod_cast h1, by exact_mod_cast h2⟩

/-- the integer form of the Julian day of a date at midnight -/
theorem jd_int (y m d : ℤ) (hy : 1 ≤ y) (hm : 1 ≤ m) :
    (julian_day_dt y m d 0 0 0 0 : K) =
      ((1461 * ((if m ≤ 2 then y - 1 else y) + 4716) / 4 + 306001 * ((if m ≤ 2 then m + 12 else m) + 1) / 10000 + d + 2 - (if m ≤ 2 then y - 1 else y) / 100
        + (if m ≤ 2 then y - 1 else y) / 100 / 4 : ℤ) : K) - 3049 / 2 := by
  have e1 : 0 ≤ (if m ≤ 2 then y - 1 else y) := by split_ifs <;> omega
  have e2 : 0 ≤ (if m ≤ 2 then m + 12 else m) := by split_ifs <;> omega
  unfold julian_day_dt
  extract_lets Y M a b f D
  have hY : 0 ≤ Y := e1
  have hM : 0 ≤ M := e2
  have ha : a = Y / 100 := pint_div (b := 100) (by push_cast; ring) hY (by norm_num)
  have ha0 : 0 ≤ a := by rw [ha]; omega
  have hb : b = 2 - a + a / 4 := by
    show 2 - a + pint _ = _
    rw [pint_div (a := a) (b := 4) (by push_cast; ring) ha0 (by norm_num)]; norm_num
  have h3 : pint ((1461 / 4 : K) * ((Y + 4716 : ℤ) : K)) = 1461 * (Y + 4716) / 4 := pint_div (b := 4) (by push_cast; ring) (by omega) (by norm_num)
  have h4 : pint ((306001 / 10000 : K) * ((M + 1 : ℤ) : K)) = 306001 * (M + 1) / 10000 := pint_div (b := 10000) (by push_cast; ring) (by omega) (by norm_num)
  rw [h3, h4, hb, ha]
  have hf : f = 0 := by simp [f]
  have hD : D = (d : K) := by simp [D, hf]
  rw [hD]
  push_cast
  ring

theorem cast_step {a b : ℤ} (h : a = b + 1) : (a : K) - 3049 / 2 = (b : K) - 3049 / 2 + 1 := by rw [h]; push_cast; ring

theorem feb_step (y : ℤ) (hy : 1 ≤ y) : (julian_day_dt y 3 1 0 0 0 0 : K) = julian_day_dt y 2 (if leap y then 29 else 28) 0 0 0 0 + 1 := by
  rw [jd_int _ _ _ hy (by norm_num), jd_int _ _ _ hy (by norm_num)]
  apply cast_step
  norm_num
  have e0 : 1461 * (y - 1 + 4716) / 4 = 365 * (y + 4715) + (y + 4715) / 4 := by omega
  have e1 : 1461 * (y + 4716) / 4 = 365 * (y + 4716) + (y + 4716) / 4 := by omega
  rw [e0, e1]
  unfold leap
  rcases eq_or_ne (y % 100) 0 with c | c
  · have c4 : y % 4 = 0 := by omega
    have q1 : (y + 4715) / 4 + 1 = (y + 4716) / 4 := by omega
    have q2 : (y - 1) / 100 = y / 100 - 1 := by omega
    rw [q2]
    rcases eq_or_ne (y % 400) 0 with c' | c'
    · have q3 : (y / 100 - 1) / 4 + 1 = y / 100 / 4 := by omega
      simp [c, c', c4]; omega
    · have q3 : (y / 100 - 1) / 4 = y / 100 / 4 := by omega
      simp [c, c', c4]; omega
  · have q2 : (y - 1) / 100 = y / 100 := by omega
    rw [q2]
    rcases eq_or_ne (y % 4) 0 with c4 | c4
    · have q1 : (y + 4715) / 4 + 1 = (y + 4716) / 4 := by omega
      simp [c, c4]; omega
    · have q1 : (y + 4715) / 4 = (y + 4716) / 4 := by omega
      simp [c4]; omega

theorem month_step (y m : ℤ) (hy : 1 ≤ y) (hm : 1 ≤ m) (hm' : m < 12) :
    (julian_day_dt y (m + 1) 1 0 0 0 0 : K) = julian_day_dt y m (daysIn y m) 0 0 0 0 + 1 := by
  by_cases h : m = 2
  · subst h; exact feb_step y hy
  · rw [jd_int _ _ _ hy (by omega), jd_int _ _ _ hy hm]
    apply cast_step
    unfold daysIn
    rw [if_neg h]
    interval_cases m <;> simp at h ⊢ <;> omega

theorem year_step (y : ℤ) (hy : 1 ≤ y) : (julian_day_dt (y + 1) 1 1 0 0 0 0 : K) = julian_day_dt y 12 31 0 0 0 0 + 1 := by
  rw [jd_int _ _ _ (by omega) (by norm_num), jd_int _ _ _ hy (by norm_num)]
  apply cast_step
  norm_num
  omega

theorem jd_next {d : Date} (h : valid d) :
    (julian_day_dt (next d).1 (next d).2.1 (next d).2.2 0 0 0 0 : K) = julian_day_dt d.1 d.2.1 d.2.2 0 0 0 0 + 1 := by
  obtain ⟨y, m, k⟩ := d
  obtain ⟨h1, h2, h3, h4, h5⟩ := h
  simp only at *
  unfold next
  simp only
  split_ifs with h h'
  · simp only
    rw [jd_int _ _ _ h1 h2, jd_int _ _ _ h1 h2]
    apply cast_step
    ring
  · simp only
    rw [month_step y m h1 h2 h', le_antisymm h5 (not_lt.1 h)]
  · simp only
    obtain rfl : m = 12 := by omega
    have hd : daysIn y 12 = 31 := by simp [daysIn]
    rw [hd] at h h5
    obtain rfl : k = 31 := by omega
    exact year_step y h1

/-- C123: for every number of days n, the Julian day computed for midnight of the n-th date of the (proleptic) Gregorian calendar after 1 January of the year 1 is n more than the one of that day, 1721425.5. -/
theorem C123_calendar (n : ℕ) :
    valid (next^[n] (1, 1, 1)) ∧
      (julian_day_dt (next^[n] (1, 1, 1)).1 (next^[n] (1, 1, 1)).2.1 (next^[n] (1, 1, 1)).2.2 0 0 0 0 : K) = 1721425.5 + n := by
  induction n with
  | zero =>
    refine ⟨by simp [valid, daysIn], ?_⟩
    simp only [Function.iterate_zero, id]
    rw [jd_int _ _ _ (by norm_num) (by norm_num)]
    norm_num
  | succ n ih =>
    rw [Function.iterate_succ_apply']
    refine ⟨next_valid ih.1, ?_⟩
    rw [jd_next ih.1, ih.2]; push_cast; ring

/-- C123: the time of the day adds its fraction of a day — except that a microsecond counts as much as a second. -/
theorem C123_time_of_day (y m d hour minute second : ℤ) (micro : ℤ) :
    (julian_day_dt y m d hour minute second 0 : K) = julian_day_dt y m d 0 0 0 0 + (hour * 3600 + minute * 60 + second) / 86400 ∧
    (julian_day_dt y m d hour minute second micro : K) = julian_day_dt y m d hour minute (second + micro) 0 := by
  constructor
  · simp only [julian_day_dt]; push_cast; ring
  · simp only [julian_day_dt]; push_cast; ring

/-- C123: the Julian day of a Unix time is its number of days from the one of 1 January 1970, to one part in 10¹⁶ -/
theorem C123_unix (u : K) : |julian_day u - (julian_day_dt 1970 1 1 0 0 0 0 + u / 86400)| ≤ 11 / 10 ^ 22 * |u| := by
  rw [jd_int _ _ _ (by norm_num) (by norm_num)]
  unfold julian_day
  norm_num
  rw [show u * (11574074074074073 / 1000000000000000000000) + 4881175 / 2 - (4881175 / 2 + u / 86400) = u * (-29 / 27000000000000000000000) by ring, abs_mul, mul_comm]
  gcongr
  norm_num
end

example : valid (2024, 2, 29) := by simp [valid, daysIn, leap]
example : (julian_day_dt 2000 1 1 12 0 0 0 : ℚ) = 2451545 := by decide +kernel

/-- C123: before the year 1 the truncating integer conversions break the count: the last day of February and the first of March of the year -99 get the same Julian day, those of -100 are two days apart. -/
theorem C123_negative_years :
    (julian_day_dt (-99) 2 28 0 0 0 0 : ℚ) = julian_day_dt (-99) 3 1 0 0 0 0 ∧
    (julian_day_dt (-100) 3 1 0 0 0 0 : ℚ) = julian_day_dt (-100) 2 28 0 0 0 0 + 2 ∧ leap (-100) = false := by decide +kernel

/-! ### ΔT -/

/-- C123: at each of the fourteen years in which `calculate_deltat` changes formula, the two formulas differ by at most 0.26 seconds at the turn of the year. -/
theorem C123_deltat_boundaries :
    ∀ Y ∈ ([-500, 500, 1600, 1700, 1800, 1860, 1900, 1920, 1941, 1961, 1986, 2005, 2050, 2150] : List ℚ),
      |calculate_deltat Y (1 / 2) - calculate_deltat (Y - 1) (25 / 2)| ≤ 26 / 100 := by decide +kernel

section
variable {K : Type _} [Field K] [LinearOrder K] [IsStrictOrderedRing K] [FloorRing K]

theorem deltat_pieces {Y : ℤ} (hY : 2005 ≤ Y) (m : K) :
    calculate_deltat (Y : K) m =
      if Y < 2050 then 6292 / 100 + 32217 / 100000 * (Y + (m - 1 / 2) / 12 - 2000) + 5589 / 1000000 * (Y + (m - 1 / 2) / 12 - 2000) * (Y + (m - 1 / 2) / 12 - 2000)
      else if Y < 2150 then -20 + 32 * ((Y + (m - 1 / 2) / 12 - 1820) / 100) ^ 2 - 5628 / 10000 * (2150 - (Y + (m - 1 / 2) / 12))
      else -20 + 32 * ((Y + (m - 1 / 2) / 12 - 1820) / 100) ^ 2 := by
  have h5 : (2005 : K) ≤ Y := by exact_mod_cast hY
  unfold calculate_deltat deltatAt
  rcases lt_or_ge Y 2050 with h | h
  · have h' : (Y : K) < 2050 := by exact_mod_cast h
    rw [if_pos ⟨h5, h'⟩, if_pos h]
  · have h' : (2050 : K) ≤ Y := by exact_mod_cast h
    rw [if_neg (by intro k; linarith [k.2]), if_neg (by intro k; linarith [k.2]), if_neg (not_lt.2 h)]
    rcases lt_or_ge Y 2150 with g | g
    · have g' : (Y : K) < 2150 := by exact_mod_cast g
      rw [if_pos ⟨h', g'⟩, if_pos g]
    · have g' : (2150 : K) ≤ Y := by exact_mod_cast g
      rw [if_neg (by intro k; linarith [k.2]), if_neg (not_lt.2 g)]
      rw [if_neg (by linarith), if_neg (by intro k; linarith [k.2]), if_neg (by intro k; linarith [k.2]), if_neg (by intro k; linarith [k.2]), if_neg (by intro k; linarith [k.2]),
        if_neg (by intro k; linarith [k.2]), if_neg (by intro k; linarith [k.2]), if_neg (by intro k; linarith [k.2]), if_neg (by intro k; linarith [k.2]),
        if_neg (by intro k; linarith [k.2]), if_neg (by intro k; linarith [k.2])]

/-- C123: from 2005 on, ΔT increases from every month to the next. -/
theorem C123_deltat_increasing (Y Y' m m' : ℤ) (hY : 2005 ≤ Y) (hm : 1 ≤ m) (hm2 : m ≤ 12) (hm' : 1 ≤ m') (hm2' : m' ≤ 12) (h : Y < Y' ∨ Y = Y' ∧ m < m') :
    calculate_deltat (Y : K) (m : K) < calculate_deltat (Y' : K) (m' : K) := by
  have hY' : 2005 ≤ Y' := by omega
  rw [deltat_pieces hY, deltat_pieces hY']
  have a1 : (1 : K) ≤ m := by exact_mod_cast hm
  have a2 : (m : K) ≤ 12 := by exact_mod_cast hm2
  have b1 : (1 : K) ≤ m' := by exact_mod_cast hm'
  have b2 : (m' : K) ≤ 12 := by exact_mod_cast hm2'
  have hlt : 12 * Y + m + 1 ≤ 12 * Y' + m' := by omega
  have hlt' : 12 * (Y : K) + m + 1 ≤ 12 * Y' + m' := by exact_mod_cast hlt
  have y5 : (2005 : K) ≤ Y := by exact_mod_cast hY
  set t : K := Y + ((m : K) - 1 / 2) / 12 with ht
  set t' : K := Y' + ((m' : K) - 1 / 2) / 12 with ht'
  have htt : t + 1 / 12 ≤ t' := by rw [ht, ht']; linarith
  have ht5 : 2005 ≤ t := by rw [ht]; linarith
  have hle : Y ≤ Y' := by omega
  split_ifs with h1 h2 h3 h4 h5 h6 h7
  · nlinarith
  · have : (Y : K) + 1 ≤ 2050 := by exact_mod_cast h1
    have h2' : (2050 : K) ≤ Y' := by exact_mod_cast (not_lt.1 h2)
    have u1 : t ≤ 2050 - 1 / 24 := by rw [ht]; linarith
    have u2 : 2050 + 1 / 24 ≤ t' := by rw [ht']; linarith
    nlinarith
  · have : (Y : K) + 1 ≤ 2050 := by exact_mod_cast h1
    have h2' : (2150 : K) ≤ Y' := by exact_mod_cast (not_lt.1 h3)
    have u1 : t ≤ 2050 - 1 / 24 := by rw [ht]; linarith
    have u2 : 2150 + 1 / 24 ≤ t' := by rw [ht']; linarith
    nlinarith
  · exfalso; omega
  · nlinarith
  · have h2' : (2150 : K) ≤ Y' := by exact_mod_cast (not_lt.1 h6)
    have : (Y : K) + 1 ≤ 2150 := by exact_mod_cast h4
    have u1 : t ≤ 2150 - 1 / 24 := by rw [ht]; linarith
    have u2 : 2150 + 1 / 24 ≤ t' := by rw [ht']; linarith
    nlinarith
  · exfalso; omega
  · exfalso; omega
  · nlinarith

/-- C123: `sunrise_sunset` adds the offset of an aware moment instead of subtracting it.  For naive moments and moments in UTC the day is right; the same instant (20:00 at UTC-6, 02:00 on the next day in
UTC) gives different days on different clocks. -/
theorem C123_sunrise_day (t : K) :
    sunriseDay t none = ⌊t / 86400⌋ ∧ sunriseDay t (some 0) = ⌊t / 86400⌋ ∧
    sunriseDay (72000 : ℚ) (some (-21600)) = 0 ∧ sunriseDay (72000 + 21600 : ℚ) (some 0) = 1 := by
  refine ⟨rfl, by simp [sunriseDay], by decide +kernel, by decide +kernel⟩
end

end Verif.Props.Spa
