import Verif.Model.NumHelpers
import Verif.Props.Splines

/-! # C132: bilinear interpolation of a table by a spline -/

namespace Verif.NumHelpers
open Verif Verif.Splines
open Verif.Translate (idx idx_ok)

variable {K : Type _} [Field K] [LinearOrder K] [IsStrictOrderedRing K]

/-- Specification: the straight line through the values `g i` and `g (i + 1)` at the abscissas `x i` and `x (i + 1)` -/
def chord (x : List K) (g : ℕ → K) (i : ℕ) (u : K) : K :=
  g i + (g (i + 1) - g i) * ((u - x.getD i 0) / (x.getD (i + 1) 0 - x.getD i 0))

theorem inc_getD {x : List K} (hx : x.Pairwise (· < ·)) {i j : ℕ} (hij : i < j) (hj : j < x.length) : x.getD i 0 < x.getD j 0 := by
  rw [List.getD_eq_getElem?_getD, List.getD_eq_getElem?_getD, List.getElem?_eq_getElem (by omega), List.getElem?_eq_getElem hj]
  exact List.pairwise_iff_getElem.1 hx _ _ (by omega) hj hij

theorem chord_unique_lt {x : List K} (hx : x.Pairwise (· < ·)) (g : ℕ → K) {i m : ℕ} (hm : m + 1 < x.length) (h : i < m) {u : K}
    (h2 : u ≤ x.getD (i + 1) 0) (h3 : x.getD m 0 ≤ u) : chord x g i u = chord x g m u := by
  have hle : i + 1 = m := by
    by_contra hne
    have := inc_getD hx (show i + 1 < m by omega) (by omega)
    linarith
  subst hle
  have hu : u = x.getD (i + 1) 0 := le_antisymm h2 h3
  have d := inc_getD hx (show i < i + 1 by omega) (by omega)
  have hne : x.getD (i + 1) 0 - x.getD i 0 ≠ 0 := by
    intro h0; linarith
  subst hu
  unfold chord
  rw [div_self hne]
  simp

/-- at a shared abscissa the neighbouring lines agree -/
theorem chord_unique {x : List K} (hx : x.Pairwise (· < ·)) (g : ℕ → K) {i m : ℕ} (hi : i + 1 < x.length) (hm : m + 1 < x.length) {u : K}
    (h1 : x.getD i 0 ≤ u) (h2 : u ≤ x.getD (i + 1) 0) (h3 : x.getD m 0 ≤ u) (h4 : u ≤ x.getD (m + 1) 0) : chord x g i u = chord x g m u := by
  rcases lt_trichotomy i m with h | h | h
  · exact chord_unique_lt hx g hm h h2 h3
  · rw [h]
  · exact (chord_unique_lt hx g hi h h4 h1).symm

theorem padEnds_ok {x : List K} (h : x ≠ []) : ∃ t, padEnds x = .ok t ∧ t.length = x.length + 2 ∧ t.getD 0 0 = x.getD 0 0 ∧ (∀ i < x.length, t.getD (i + 1) 0 = x.getD i 0) ∧
    t.getD (x.length + 1) 0 = x.getD (x.length - 1) 0 := by
  cases x with
  | nil => exact absurd rfl h
  | cons a s =>
    refine ⟨_, rfl, by simp, by simp, fun i hi => ?_, ?_⟩
    · simp only [List.cons_append, List.getD_cons_succ]
      rw [← List.cons_append, List.getD_eq_getElem?_getD, List.getElem?_append_left hi, List.getD_eq_getElem?_getD]
    · simp only [List.cons_append, List.getD_cons_succ]
      rw [← List.cons_append, List.getD_eq_getElem?_getD, List.getElem?_append_right le_rfl, List.getLast_eq_getElem, List.getD_eq_getElem?_getD, List.getElem?_eq_getElem (by simp)]
      simp

theorem padEnds_knots {x t : List K} (hx : x.Pairwise (· < ·)) (hl : 2 ≤ x.length) (h1 : t.length = x.length + 2) (h2 : t.getD 0 0 = x.getD 0 0)
    (h3 : ∀ i < x.length, t.getD (i + 1) 0 = x.getD i 0) (h4 : t.getD (x.length + 1) 0 = x.getD (x.length - 1) 0) : Knots t 1 x.length := by
  refine ⟨h1, by omega, ?_, ?_, ?_⟩
  · have hk : ∀ i, knots t i = x.getD (min (i - 1) (x.length - 1)) 0 := by
      intro i
      unfold knots
      rcases Nat.eq_zero_or_pos i with rfl | hi
      · simpa using h2
      · rcases lt_or_ge (i - 1) x.length with h | h
        · rw [min_eq_left (by omega), min_eq_left (by omega)]
          have := h3 (i - 1) h
          rwa [show i - 1 + 1 = i by omega] at this
        · rw [min_eq_right (by omega), min_eq_right (by omega), h1]
          exact h4
    intro i j hij
    rw [hk, hk]
    rcases Nat.lt_or_ge (min (i - 1) (x.length - 1)) (min (j - 1) (x.length - 1)) with h | h
    · exact (inc_getD hx h (by omega)).le
    · rw [show min (i - 1) (x.length - 1) = min (j - 1) (x.length - 1) by omega]
  · rw [h3 0 (by omega), h3 1 (by omega)]
    exact inc_getD hx (by omega) (by omega)
  · have e1 := h3 (x.length - 2) (by omega)
    have e2 := h3 (x.length - 1) (by omega)
    rw [show x.length - 2 + 1 = x.length - 1 by omega] at e1
    rw [show x.length - 1 + 1 = x.length by omega] at e2
    rw [e1, e2]
    exact inc_getD hx (by omega) (by omega)

/-- Specification: the nearest point of the range of the abscissas -/
def nearest (x : List K) (u : K) : K := max (x.getD 0 0) (min u (x.getD (x.length - 1) 0))

/-- the weights found in one direction -/
theorem init_w_linear {x t : List K} (hx : x.Pairwise (· < ·)) (hl : 2 ≤ x.length) (h1 : t.length = x.length + 2) (h2 : t.getD 0 0 = x.getD 0 0)
    (h3 : ∀ i < x.length, t.getD (i + 1) 0 = x.getD i 0) (h4 : t.getD (x.length + 1) 0 = x.getD (x.length - 1) 0) (u : K) :
    ∃ m w, init_w t 1 u = .ok (m, w) ∧ m + 1 < x.length ∧ x.getD m 0 ≤ nearest x u ∧ nearest x u ≤ x.getD (m + 1) 0 ∧ w.length = 2 ∧
      ∀ g : ℕ → K, g m * w.getD 0 0 + g (m + 1) * w.getD 1 0 = chord x g m (nearest x u) := by
  obtain ⟨l, w, he, l1, l2, l3, l4, l5, l6, l7, -⟩ := init_w_spec (padEnds_knots hx hl h1 h2 h3 h4) (by norm_num) u
  have hcl : clampTo t 1 x.length u = nearest x u := by
    unfold clampTo nearest
    have e1 := h3 0 (by omega)
    have e2 := h3 (x.length - 1) (by omega)
    rw [show x.length - 1 + 1 = x.length by omega] at e2
    rw [e1, e2]
  rw [hcl] at l5 l6 l7
  have k1 : t.getD (l - 1) 0 = x.getD (l - 2) 0 := by
    have := h3 (l - 2) (by omega)
    rwa [show l - 2 + 1 = l - 1 by omega] at this
  have k2 : t.getD l 0 = x.getD (l - 1) 0 := by
    have := h3 (l - 1) (by omega)
    rwa [show l - 1 + 1 = l by omega] at this
  refine ⟨l - 1 - 1, w, he, by omega, ?_, ?_, l4, fun g => ?_⟩
  · rw [show l - 1 - 1 = l - 2 by omega, ← k1]; exact l6
  · rw [show l - 1 - 1 + 1 = l - 1 by omega, ← k2]; exact l7
  · have w0 := l5 0 (by norm_num)
    have w1 := l5 1 (by norm_num)
    have d := inc_getD hx (show l - 2 < l - 1 by omega) (by omega)
    have hne : x.getD (l - 1) 0 - x.getD (l - 2) 0 ≠ 0 := by intro h0; linarith
    have n1 : knots t (l - 1) = x.getD (l - 2) 0 := by rw [knots_lt (by omega), k1]
    have n2 : knots t l = x.getD (l - 1) 0 := by rw [knots_lt (by omega), k2]
    rw [show l - 1 - 1 + 0 = l - 2 by omega] at w0
    rw [show l - 1 - 1 + 1 = l - 1 by omega] at w1
    simp only [bpiece] at w0 w1
    rw [if_neg (by omega), if_pos (by omega), show l - 2 + 0 + 2 = l by omega, show l - 2 + 1 = l - 1 by omega, n1, n2] at w0
    rw [if_pos trivial, if_neg (by omega), show l - 1 + 0 + 1 = l by omega, n1, n2] at w1
    rw [w0, w1]
    unfold chord
    rw [show l - 1 - 1 = l - 2 by omega, show l - 2 + 1 = l - 1 by omega]
    field_simp
    ring

theorem flatten_getD {L : List (List K)} {n : ℕ} (h : ∀ l ∈ L, l.length = n) : ∀ i < L.length, ∀ j < n, L.flatten.getD (i * n + j) 0 = (L.getD i []).getD j 0 := by
  induction L with
  | nil => intro i hi; simp at hi
  | cons a t ih =>
    intro i hi j hj
    have ha := h a (by simp)
    rw [List.flatten_cons]
    cases i with
    | zero =>
      rw [Nat.zero_mul, zero_add, List.getD_eq_getElem?_getD, List.getElem?_append_left (by omega)]
      simp [List.getD_eq_getElem?_getD]
    | succ i =>
      rw [List.getD_eq_getElem?_getD, List.getElem?_append_right (by rw [ha]; nlinarith), ha, show (i + 1) * n + j - n = i * n + j by
        rw [Nat.add_mul, one_mul]; omega, ← List.getD_eq_getElem?_getD, ih (fun l hl => h l (by simp [hl])) i (by simpa using hi) j hj]
      simp

theorem mapM_ok' {α β : Type _} (f : α → Py β) (g : α → β) : ∀ l : List α, (∀ a ∈ l, f a = .ok (g a)) → l.mapM f = .ok (l.map g)
  | [], _ => rfl
  | a :: t, h => by
    rw [List.mapM_cons, h a (by simp), Py.ok_bind, mapM_ok' f g t fun b hb => h b (by simp [hb])]
    rfl

/-- C132: the spline made of a table by `tck_interp2d_linear` is its bilinear interpolant. For increasing abscissas and one row of values per ordinate the spline is, at every point, the line in `y` through the lines in `x` of the cell that the point is in; points outside are moved to the nearest point of the table. -/
theorem C132_interp2d (x y : List K) (z : List (List K)) (hx : x.Pairwise (· < ·)) (hy : y.Pairwise (· < ·)) (hlx : 2 ≤ x.length) (hly : 2 ≤ y.length)
    (hz : z.length = y.length) (hr : ∀ row ∈ z, row.length = x.length) :
    ∃ tx ty c, tck_interp2d_linear x y z = .ok (tx, ty, c) ∧
      ∀ u v, ∀ i j, i + 1 < x.length → j + 1 < y.length → x.getD i 0 ≤ nearest x u → nearest x u ≤ x.getD (i + 1) 0 → y.getD j 0 ≤ nearest y v → nearest y v ≤ y.getD (j + 1) 0 →
        py_bisplev u v tx ty c 1 1 = .ok (chord y (fun b => chord x (fun a => (z.getD b []).getD a 0) i (nearest x u)) j (nearest y v)) := by
  obtain ⟨tx, ex, x1, x2, x3, x4⟩ := padEnds_ok (x := x) (by rintro rfl; simp at hlx)
  obtain ⟨ty, ey, y1, y2, y3, y4⟩ := padEnds_ok (x := y) (by rintro rfl; simp at hly)
  obtain ⟨z0, zt, rfl⟩ : ∃ z0 zt, z = z0 :: zt := by
    cases z with
    | nil => simp at hz; omega
    | cons a t => exact ⟨a, t, rfl⟩
  set z := z0 :: zt
  have hz0 : z0.length = x.length := hr z0 (by simp [z])
  set L := (List.range x.length).map fun i => z.map fun row => row.getD i 0
  refine ⟨tx, ty, L.flatten, ?_, ?_⟩
  · unfold tck_interp2d_linear
    rw [if_neg (by simp), ex, Py.ok_bind, ey, Py.ok_bind]
    show (Except.ok z0 >>= fun z0 => _) = _
    rw [Py.ok_bind, hz0, mapM_ok' _ (fun i => z.map fun row => row.getD i 0) _ fun i hi => mapM_ok' _ _ _ fun row hrow => ?_]
    · rfl
    · rw [List.getElem?_eq_getElem (by rw [hr row hrow]; exact List.mem_range.1 hi), List.getD_eq_getElem?_getD, List.getElem?_eq_getElem (by rw [hr row hrow]; exact List.mem_range.1 hi)]
      rfl
  · intro u v i j hi hj hu1 hu2 hv1 hv2
    obtain ⟨m, wx, ewx, m1, m2, m3, m4, m5⟩ := init_w_linear hx hlx x1 x2 x3 x4 u
    obtain ⟨p, wy, ewy, p1, p2, p3, p4, p5⟩ := init_w_linear hy hly y1 y2 y3 y4 v
    have hLlen : L.length = x.length := by simp [L]
    have hLrow : ∀ l ∈ L, l.length = y.length := by
      intro l hl
      obtain ⟨i, -, rfl⟩ := List.mem_map.1 hl
      rw [List.length_map, hz]
    have hflat : L.flatten.length = x.length * y.length := by
      rw [List.length_flatten, List.map_congr_left hLrow, List.map_const', List.sum_replicate, hLlen, smul_eq_mul]
    have hc : ∀ a < x.length, ∀ b < y.length, idx L.flatten (a * y.length + b) = .ok ((z.getD b []).getD a 0) := by
      intro a ha b hb
      have hlt : a * y.length + b < L.flatten.length := by
        rw [hflat]
        calc _ < a * y.length + y.length := by omega
          _ = (a + 1) * y.length := by ring
          _ ≤ _ := Nat.mul_le_mul_right _ ha
      rw [idx_ok (0 : K) hlt, flatten_getD hLrow a (by omega) b hb]
      simp [L, List.getD_eq_getElem?_getD, List.getElem?_map, List.getElem?_range ha, List.getElem?_eq_getElem (show b < z.length by omega)]
    unfold py_bisplev
    rw [ewx, Py.ok_bind, ewy, Py.ok_bind]
    have hny : ty.length - (1 + 1) = y.length := by omega
    have i00 := hc m (by omega) p (by omega)
    have i01 := hc m (by omega) (p + 1) (by omega)
    have i10 := hc (m + 1) (by omega) p (by omega)
    have i11 := hc (m + 1) (by omega) (p + 1) (by omega)
    simp only [hny, show List.range (1 + 1) = [0, 1] from rfl, List.foldlM_cons, List.foldlM_nil]
    rw [show m * y.length + p + 0 * y.length + 0 = m * y.length + p by ring, show m * y.length + p + 0 * y.length + 1 = m * y.length + (p + 1) by ring,
      show m * y.length + p + 1 * y.length + 0 = (m + 1) * y.length + p by ring, show m * y.length + p + 1 * y.length + 1 = (m + 1) * y.length + (p + 1) by ring,
      i00, i01, i10, i11, idx_ok (0 : K) (show 0 < wx.length by omega), idx_ok (0 : K) (show 1 < wx.length by omega), idx_ok (0 : K) (show 0 < wy.length by omega), idx_ok (0 : K) (show 1 < wy.length by omega)]
    simp only [Py.ok_bind, Py.pure_eq]
    congr 1
    have hL : ∀ b, chord x (fun a => (z.getD b []).getD a 0) i (nearest x u) = (z.getD b []).getD m 0 * wx.getD 0 0 + (z.getD b []).getD (m + 1) 0 * wx.getD 1 0 := by
      intro b
      rw [chord_unique hx _ hi m1 hu1 hu2 m2 m3]
      exact (m5 fun a => (z.getD b []).getD a 0).symm
    rw [chord_unique hy _ hj p1 hv1 hv2 p2 p3, ← p5]
    simp only [hL]
    ring

/-- C132: so at the points of the table it returns the table, and other degrees or an empty table raise an error. -/
theorem C132_interp2d_table (x y : List K) (z : List (List K)) (hx : x.Pairwise (· < ·)) (hy : y.Pairwise (· < ·)) (hlx : 2 ≤ x.length) (hly : 2 ≤ y.length)
    (hz : z.length = y.length) (hr : ∀ row ∈ z, row.length = x.length) :
    (∃ tx ty c, tck_interp2d_linear x y z = .ok (tx, ty, c) ∧ ∀ i < x.length, ∀ j < y.length, py_bisplev (x.getD i 0) (y.getD j 0) tx ty c 1 1 = .ok ((z.getD j []).getD i 0)) ∧
    (∀ kx ky, kx ≠ 1 ∨ ky ≠ 1 → tck_interp2d_linear x y z kx ky = .error .valueError) ∧ tck_interp2d_linear [] y z = .error .indexError := by
  refine ⟨?_, fun kx ky h => ?_, ?_⟩
  · obtain ⟨tx, ty, c, h1, h2⟩ := C132_interp2d x y z hx hy hlx hly hz hr
    refine ⟨tx, ty, c, h1, fun i hi j hj => ?_⟩
    have near : ∀ (w : List K), w.Pairwise (· < ·) → 2 ≤ w.length → ∀ k < w.length, nearest w (w.getD k 0) = w.getD k 0 := by
      intro w hw hl k hk
      have mono : ∀ a b, a ≤ b → b < w.length → w.getD a 0 ≤ w.getD b 0 := by
        intro a b hab hb
        rcases hab.lt_or_eq with h | h
        · exact (inc_getD hw h hb).le
        · rw [h]
      unfold nearest
      rw [min_eq_left (mono k _ (by omega) (by omega)), max_eq_right (mono 0 k (by omega) hk)]
    have cell : ∀ (w : List K), w.Pairwise (· < ·) → 2 ≤ w.length → ∀ k < w.length, ∃ a, a + 1 < w.length ∧ w.getD a 0 ≤ w.getD k 0 ∧ w.getD k 0 ≤ w.getD (a + 1) 0 ∧ ∀ g : ℕ → K, chord w g a (w.getD k 0) = g k := by
      intro w hw hl k hk
      by_cases hk1 : k + 1 < w.length
      · refine ⟨k, hk1, le_rfl, (inc_getD hw (by omega) hk1).le, fun g => ?_⟩
        unfold chord; simp
      · have d := inc_getD hw (show k - 1 < k by omega) hk
        refine ⟨k - 1, by omega, d.le, by rw [show k - 1 + 1 = k by omega], fun g => ?_⟩
        unfold chord
        rw [show k - 1 + 1 = k by omega, div_self (by intro h0; linarith)]
        ring
    obtain ⟨a, a1, a2, a3, a4⟩ := cell x hx hlx i hi
    obtain ⟨b, b1, b2, b3, b4⟩ := cell y hy hly j hj
    rw [h2 _ _ a b a1 b1 (by rw [near x hx hlx i hi]; exact a2) (by rw [near x hx hlx i hi]; exact a3) (by rw [near y hy hly j hj]; exact b2) (by rw [near y hy hly j hj]; exact b3), near x hx hlx i hi, near y hy hly j hj, b4, a4]
  · unfold tck_interp2d_linear
    rw [if_pos h]
  · unfold tck_interp2d_linear
    rw [if_neg (by simp)]; rfl

example : tck_interp2d_linear [1, 2, (4 : ℚ)] [0, 1] [[1, 2, 3], [5, 6, 7]] = .ok ([1, 1, 2, 4, 4], [0, 0, 1, 1], [1, 5, 2, 6, 3, 7]) := by decide +kernel

end Verif.NumHelpers
