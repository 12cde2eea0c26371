import Verif.Model.Saltation
import Verif.Lemmas.Tactic

/-! C75: saltation velocities satisfy their defining correlations. -/

open Real

noncomputable section

namespace Verif.Saltation

/-! ### Specification: the quantities the documentation defines -/

/-- solids loading at the gas velocity `V`: solids mass flow over gas mass flow -/
def loading (mp rhog D V : ℝ) : ℝ := mp / (π / 4 * D ^ 2 * V * rhog)

/-- Froude number of a velocity and a length -/
def Fr (V L : ℝ) : ℝ := V / √(g * L)

/-- the documented size above which Matsumoto's 1977 model treats particles as coarse -/
def coarseLimit (rhop rhog D : ℝ) : ℝ := D * 1.39 * (rhop / rhog) ^ (-0.74 : ℝ)

/-! ### Auxiliary -/

theorem root_solve {e1 e2 n : ℝ} (h1 : 0 < e1) (h2 : 0 < e2) (hn : n + 1 ≠ 0) :
    0 < (e2 / e1) ^ (1 / (n + 1)) ∧ e2 / (e2 / e1) ^ (1 / (n + 1)) = e1 * ((e2 / e1) ^ (1 / (n + 1))) ^ n := by
  have hq : 0 < e2 / e1 := div_pos h2 h1
  have hV : 0 < (e2 / e1) ^ (1 / (n + 1)) := rpow_pos_of_pos hq _
  refine ⟨hV, ?_⟩
  rw [div_eq_iff hV.ne', mul_assoc, ← rpow_add_one hV.ne', ← rpow_mul hq.le, one_div_mul_cancel hn, rpow_one]
  field_simp

theorem loading_eq {mp rhog D V : ℝ} (hr : 0 < rhog) (hD : 0 < D) (hV : 0 < V) : loading mp rhog D V = mp / rhog / (π / 4 * D ^ 2) / V := by
  have := pi_pos
  unfold loading; field_simp

theorem g_pos : 0 < g := by norm_num [g]

theorem C75_Rizk {mp dp rhog D : ℝ} (hm : 0 < mp) (hd : 0 < dp) (hr : 0 < rhog) (hD : 0 < D) :
    ∃ V, Rizk mp dp rhog D = .ok V ∧ 0 < V ∧ loading mp rhog D V = 1 / 10 ^ (1440 * dp + 1.96) * Fr V D ^ (1100 * dp + 2.5) := by
  have hg := g_pos; have hp := pi_pos
  have hs : 0 < √(g * D) := sqrt_pos.mpr (by positivity)
  have hb : (1 : ℝ) + (1100.0 * dp + 2.5) ≠ 0 := by positivity
  have hA : 0 < (0.1 : ℝ) ^ (1440.0 * dp + 1.96) := by positivity
  have hw : 0 < (1 / √(g * D)) ^ (1100.0 * dp + 2.5) := by positivity
  have hgD : 0 ≤ g * D := by positivity
  unfold Rizk
  py_eval []
  have h1 : 0 < (0.1 : ℝ) ^ (1440.0 * dp + 1.96) * (1 / √(g * D)) ^ (1100.0 * dp + 2.5) := mul_pos hA hw
  have h2 : 0 < mp / rhog / (π / 4 * D * D) := by positivity
  obtain ⟨hV, he⟩ := root_solve (n := 1100.0 * dp + 2.5) h1 h2 (by rw [add_comm]; exact hb)
  rw [add_comm (1:ℝ)]
  refine ⟨_, rfl, hV, ?_⟩
  rw [loading_eq hr hD hV, show π / 4 * D ^ 2 = π / 4 * D * D by ring, he]
  generalize (mp / rhog / (π / 4 * D * D) / ((0.1 : ℝ) ^ (1440.0 * dp + 1.96) * (1 / √(g * D)) ^ (1100.0 * dp + 2.5))) ^ (1 / (1100.0 * dp + 2.5 + 1)) = V at *
  have e1 : (0.1 : ℝ) ^ (1440.0 * dp + 1.96) = 1 / 10 ^ (1440 * dp + 1.96) := by
    rw [show (0.1 : ℝ) = 10⁻¹ by norm_num, inv_rpow (by norm_num), one_div]; norm_num
  rw [e1, mul_assoc, ← mul_rpow (by positivity) hV.le, Fr]
  congr 2
  · ring
  · norm_num

theorem C75_Matsumoto_1974 {mp rhop dp rhog D Vt : ℝ} (hm : 0 < mp) (hrp : 0 < rhop) (hd : 0 < dp) (hr : 0 < rhog) (hD : 0 < D) (hVt : 0 < Vt) :
    ∃ V, Matsumoto_1974 mp rhop dp rhog D Vt = .ok V ∧ 0 < V ∧
      loading mp rhog D V = 0.448 * (rhop / rhog) ^ (0.5 : ℝ) * (Fr Vt dp / 10) ^ (-1.75 : ℝ) * (Fr V D / 10) ^ (3 : ℝ) := by
  have hg := g_pos; have hp := pi_pos
  have hs : 0 < √(g * D) := sqrt_pos.mpr (by positivity)
  have hs' : 0 < √(g * dp) := sqrt_pos.mpr (by positivity)
  have hq : 0 < √(rhop / rhog) := sqrt_pos.mpr (by positivity)
  have hw : 0 < (Vt / √(g * dp) / 10) ^ (-1.75 : ℝ) := by positivity
  have hgD : 0 ≤ g * D := by positivity
  have hgd : 0 ≤ g * dp := by positivity
  unfold Matsumoto_1974
  py_eval []
  have h1 : 0 < 0.448 * √(rhop / rhog) * (Vt / √(g * dp) / 10) ^ (-1.75 : ℝ) * (1 / √(g * D) / 10) ^ 3 := by positivity
  have h2 : 0 < mp / rhog / (π / 4 * D ^ 2) := by positivity
  obtain ⟨hV, he⟩ := root_solve (n := 3) h1 h2 (by norm_num)
  rw [show (1 : ℝ) / 4 = 1 / (3 + 1) by norm_num]
  refine ⟨_, rfl, hV, ?_⟩
  rw [loading_eq hr hD hV, he]
  generalize (mp / rhog / (π / 4 * D ^ 2) / (0.448 * √(rhop / rhog) * (Vt / √(g * dp) / 10) ^ (-1.75 : ℝ) * (1 / √(g * D) / 10) ^ 3)) ^ (1 / (3 + 1) : ℝ) = V at *
  rw [sqrt_eq_rpow, show (1 / 2 : ℝ) = 0.5 by norm_num]
  simp only [Fr, show (3 : ℝ) = ((3 : ℕ) : ℝ) by norm_num, rpow_natCast]
  ring

theorem C75_Matsumoto_1975 {mp rhop dp rhog D Vt : ℝ} (hm : 0 < mp) (hrp : 0 < rhop) (hd : 0 < dp) (hr : 0 < rhog) (hD : 0 < D) (hVt : 0 < Vt) :
    ∃ V, Matsumoto_1975 mp rhop dp rhog D Vt = .ok V ∧ 0 < V ∧
      loading mp rhog D V = 1.11 * (rhop / rhog) ^ (0.55 : ℝ) * (Fr Vt dp / 10) ^ (-2.3 : ℝ) * (Fr V D / 10) ^ (3 : ℝ) := by
  have hg := g_pos; have hp := pi_pos
  have hs : 0 < √(g * D) := sqrt_pos.mpr (by positivity)
  have hs' : 0 < √(g * dp) := sqrt_pos.mpr (by positivity)
  have hw : 0 < (Vt / √(g * dp) / 10) ^ (-2.3 : ℝ) := by positivity
  have hgD : 0 ≤ g * D := by positivity
  have hgd : 0 ≤ g * dp := by positivity
  unfold Matsumoto_1975
  py_eval []
  have h1 : 0 < 1.11 * (rhop / rhog) ^ (0.55 : ℝ) * (Vt / √(g * dp) / 10) ^ (-2.3 : ℝ) * (1 / √(g * D) / 10) ^ 3 := by positivity
  have h2 : 0 < mp / rhog / (π / 4 * D ^ 2) := by positivity
  obtain ⟨hV, he⟩ := root_solve (n := 3) h1 h2 (by norm_num)
  rw [show (1 : ℝ) / 4 = 1 / (3 + 1) by norm_num]
  refine ⟨_, rfl, hV, ?_⟩
  rw [loading_eq hr hD hV, he]
  generalize (mp / rhog / (π / 4 * D ^ 2) / (1.11 * (rhop / rhog) ^ (0.55 : ℝ) * (Vt / √(g * dp) / 10) ^ (-2.3 : ℝ) * (1 / √(g * D) / 10) ^ 3)) ^ (1 / (3 + 1) : ℝ) = V at *
  simp only [Fr, show (3 : ℝ) = ((3 : ℕ) : ℝ) by norm_num, rpow_natCast]
  ring

theorem matsumoto_dispatch {mp rhop dp rhog D Vt : ℝ} (hrp : 0 < rhop) (hr : 0 < rhog) :
    Matsumoto_1977 mp rhop dp rhog D Vt = if coarseLimit rhop rhog D < dp then Matsumoto_1977_coarse mp rhop dp rhog D Vt else Matsumoto_1977_fine mp dp rhog D := by
  unfold Matsumoto_1977 coarseLimit
  py_eval []
  rw [mul_comm (1.39 : ℝ) D]

/-- C75: coarse particles, those above the documented limit -/
theorem C75_Matsumoto_1977_coarse {mp rhop dp rhog D Vt : ℝ} (hm : 0 < mp) (hrp : 0 < rhop) (hd : 0 < dp) (hr : 0 < rhog) (hD : 0 < D) (hVt : 0 < Vt)
    (hc : coarseLimit rhop rhog D < dp) :
    ∃ V, Matsumoto_1977 mp rhop dp rhog D Vt = .ok V ∧ 0 < V ∧
      loading mp rhog D V = 0.373 * (rhop / rhog) ^ (1.06 : ℝ) * (Fr Vt dp / 10) ^ (-3.7 : ℝ) * (Fr V D / 10) ^ (3.61 : ℝ) := by
  rw [matsumoto_dispatch hrp hr, if_pos hc]
  have hg := g_pos; have hp := pi_pos
  have hs : 0 < √(g * D) := sqrt_pos.mpr (by positivity)
  have hs' : 0 < √(g * dp) := sqrt_pos.mpr (by positivity)
  have hw : 0 < (Vt / √(g * dp) / 10) ^ (-3.7 : ℝ) := by positivity
  have hgD : 0 ≤ g * D := by positivity
  have hgd : 0 ≤ g * dp := by positivity
  unfold Matsumoto_1977_coarse
  py_eval []
  have h1 : 0 < 0.373 * (rhop / rhog) ^ (1.06 : ℝ) * (Vt / √(g * dp) / 10) ^ (-3.7 : ℝ) * (1 / √(g * D) / 10) ^ (3.61 : ℝ) := by positivity
  have h2 : 0 < mp / rhog / (π / 4 * D ^ 2) := by positivity
  obtain ⟨hV, he⟩ := root_solve (n := 3.61) h1 h2 (by norm_num)
  rw [show (1 : ℝ) / 4.61 = 1 / (3.61 + 1) by norm_num]
  refine ⟨_, rfl, hV, ?_⟩
  rw [loading_eq hr hD hV, he]
  generalize (mp / rhog / (π / 4 * D ^ 2) / (0.373 * (rhop / rhog) ^ (1.06 : ℝ) * (Vt / √(g * dp) / 10) ^ (-3.7 : ℝ) * (1 / √(g * D) / 10) ^ (3.61 : ℝ))) ^ (1 / (3.61 + 1) : ℝ) = V at *
  rw [mul_assoc _ ((1 / √(g * D) / 10) ^ (3.61 : ℝ)), ← mul_rpow (by positivity) hV.le]
  simp only [Fr]
  congr 2
  ring

/-- C75: fine particles -/
theorem C75_Matsumoto_1977_fine {mp rhop dp rhog D Vt : ℝ} (hm : 0 < mp) (hrp : 0 < rhop) (hd : 0 < dp) (hr : 0 < rhog) (hD : 0 < D)
    (hc : dp ≤ coarseLimit rhop rhog D) :
    ∃ V, Matsumoto_1977 mp rhop dp rhog D Vt = .ok V ∧ 0 < V ∧
      loading mp rhog D V = 5560 * (dp / D) ^ (1.43 : ℝ) * (Fr V D / 10) ^ (4 : ℝ) := by
  rw [matsumoto_dispatch hrp hr, if_neg (not_lt.mpr hc)]
  have hg := g_pos; have hp := pi_pos
  have hs : 0 < √(g * D) := sqrt_pos.mpr (by positivity)
  have hgD : 0 ≤ g * D := by positivity
  unfold Matsumoto_1977_fine
  py_eval []
  have h1 : 0 < 5560 * (dp / D) ^ (1.43 : ℝ) * (1 / √(g * D) / 10) ^ 4 := by positivity
  have h2 : 0 < mp / rhog / (π / 4 * D ^ 2) := by positivity
  obtain ⟨hV, he⟩ := root_solve (n := 4) h1 h2 (by norm_num)
  rw [show (0.2 : ℝ) = 1 / (4 + 1) by norm_num]
  refine ⟨_, rfl, hV, ?_⟩
  rw [loading_eq hr hD hV, he]
  generalize (mp / rhog / (π / 4 * D ^ 2) / (5560 * (dp / D) ^ (1.43 : ℝ) * (1 / √(g * D) / 10) ^ 4)) ^ (1 / (4 + 1) : ℝ) = V at *
  simp only [Fr, show (4 : ℝ) = ((4 : ℕ) : ℝ) by norm_num, rpow_natCast]
  ring

theorem C75_Schade {mp rhop dp rhog D : ℝ} (hm : 0 < mp) (hrp : 0 < rhop) (hd : 0 < dp) (hr : 0 < rhog) (hD : 0 < D) :
    ∃ V, Schade mp rhop dp rhog D = .ok V ∧ 0 < V ∧
      Fr V D = loading mp rhog D V ^ (0.11 : ℝ) * (D / dp) ^ (0.025 : ℝ) * (rhop / rhog) ^ (0.34 : ℝ) := by
  have hg := g_pos; have hp := pi_pos
  have hs : 0 < √(g * D) := sqrt_pos.mpr (by positivity)
  have hgD : 0 ≤ g * D := by positivity
  unfold Schade
  py_eval []
  have h2 : 0 < (mp / (rhog * π / 4 * D ^ 2)) ^ (0.11 : ℝ) * ((D / dp) ^ (0.025 : ℝ) * (rhop / rhog) ^ (0.34 : ℝ)) * √(g * D) := by positivity
  obtain ⟨hV, he⟩ := root_solve (n := 0.11) one_pos h2 (by norm_num)
  rw [show (1 : ℝ) / 1.11 = 1 / (0.11 + 1) by norm_num]
  rw [div_one] at hV he
  refine ⟨_, rfl, hV, ?_⟩
  generalize ((mp / (rhog * π / 4 * D ^ 2)) ^ (0.11 : ℝ) * ((D / dp) ^ (0.025 : ℝ) * (rhop / rhog) ^ (0.34 : ℝ)) * √(g * D)) ^ (1 / (0.11 + 1) : ℝ) = V at *
  rw [loading_eq hr hD hV, div_rpow (by positivity) hV.le, show mp / rhog / (π / 4 * D ^ 2) = mp / (rhog * π / 4 * D ^ 2) by field_simp, Fr]
  have hVp : 0 < V ^ (0.11 : ℝ) := by positivity
  rw [div_eq_iff hV.ne'] at he
  rw [div_eq_iff hs.ne', div_mul_eq_mul_div, div_mul_eq_mul_div, div_mul_eq_mul_div, eq_div_iff hVp.ne']
  linear_combination -he

/-- C75: Weber's model with its two terminal velocity ranges -/
theorem C75_Weber {mp dp rhog D Vt : ℝ} (hm : 0 < mp) (hd : 0 < dp) (hr : 0 < rhog) (hD : 0 < D) (hVt : 0 ≤ Vt) :
    ∃ V, Weber_saltation mp dp rhog D Vt = .ok V ∧ 0 < V ∧
      (Vt ≤ 3 → Fr V D = (7 + 8 / 3 * Vt) * loading mp rhog D V ^ (0.25 : ℝ) * (dp / D) ^ (0.1 : ℝ)) ∧
      (3 < Vt → Fr V D = 15 * loading mp rhog D V ^ (0.25 : ℝ) * (dp / D) ^ (0.1 : ℝ)) := by
  have hg := g_pos; have hp := pi_pos
  have hs : 0 < √(g * D) := sqrt_pos.mpr (by positivity)
  have hgD : 0 ≤ g * D := by positivity
  obtain ⟨c, hc, hcd⟩ : ∃ c, 0 < c ∧ c = if Vt ≤ 3 then 7 + 8 / 3 * Vt else 15 := by
    refine ⟨_, ?_, rfl⟩; split_ifs <;> positivity
  have hif : (if Vt ≤ 3 then (7 + 8 / 3 * Vt) * (dp / D) ^ (0.1 : ℝ) else 15 * (dp / D) ^ (0.1 : ℝ)) = c * (dp / D) ^ (0.1 : ℝ) := by rw [hcd]; split_ifs <;> rfl
  unfold Weber_saltation
  py_eval [hif]
  have e4 : √√(mp / rhog / (π / 4 * D ^ 2)) = (mp / rhog / (π / 4 * D ^ 2)) ^ (0.25 : ℝ) := by
    rw [sqrt_eq_rpow, sqrt_eq_rpow, ← rpow_mul (by positivity)]; norm_num
  have hpos : 0 < c * (dp / D) ^ (0.1 : ℝ) / (1 / √(g * D)) * √√(mp / rhog / (π / 4 * D ^ 2)) := by
    rw [e4]; positivity
  rw [e4] at hpos ⊢
  obtain ⟨hV, he⟩ := root_solve (n := 0.25) one_pos hpos (by norm_num)
  rw [show (1 : ℝ) / 1.25 = 1 / (0.25 + 1) by norm_num]
  rw [div_one] at hV he
  refine ⟨_, rfl, hV, ?_⟩
  generalize (c * (dp / D) ^ (0.1 : ℝ) / (1 / √(g * D)) * (mp / rhog / (π / 4 * D ^ 2)) ^ (0.25 : ℝ)) ^ (1 / (0.25 + 1) : ℝ) = V at *
  have key : Fr V D = c * loading mp rhog D V ^ (0.25 : ℝ) * (dp / D) ^ (0.1 : ℝ) := by
    rw [loading_eq hr hD hV, div_rpow (x := mp / rhog / (π / 4 * D ^ 2)) (by positivity) hV.le, Fr]
    have hVp : 0 < V ^ (0.25 : ℝ) := by positivity
    rw [div_eq_iff hV.ne'] at he
    rw [div_eq_iff hs.ne', ← mul_div_assoc, div_mul_eq_mul_div, div_mul_eq_mul_div, eq_div_iff hVp.ne']
    rw [div_div_eq_mul_div, div_one] at he
    linear_combination -he
  refine ⟨fun h => ?_, fun h => ?_⟩
  · rw [key, hcd, if_pos h]
  · rw [key, hcd, if_neg (not_le.mpr h)]

/-- C75: Geldart and Ling, with `G` the solids mass flux -/
theorem C75_Geldart_Ling {mp rhog D mug : ℝ} (hm : 0 < mp) (hr : 0 < rhog) (hD : 0 < D) (hmu : 0 < mug) :
    ∀ G, G = mp / (π / 4 * D ^ 2) → ∃ V, Geldart_Ling mp rhog D mug = .ok V ∧ 0 < V ∧
      (G / D ≤ 47000 → V = 1.5 * G ^ (0.465 : ℝ) * D ^ (-0.01 : ℝ) * mug ^ (0.055 : ℝ) * rhog ^ (-0.42 : ℝ)) ∧
      (47000 < G / D → V = 8.7 * G ^ (0.302 : ℝ) * D ^ (0.153 : ℝ) * mug ^ (0.055 : ℝ) * rhog ^ (-0.42 : ℝ)) := by
  rintro G hG
  have hp := pi_pos
  have hG0 : 0 < G := by rw [hG]; positivity
  have e : mp / (0.25 * π * D * D) = G := by rw [hG]; norm_num; ring_nf
  unfold Geldart_Ling
  rw [pdiv_ok (by positivity), Py.ok_bind, e, pdiv_ok hD.ne', Py.ok_bind]
  by_cases h : G / D ≤ 47000
  · rw [if_pos h]
    py_eval []
    exact ⟨_, rfl, by positivity, fun _ => rfl, fun h' => absurd h (not_le.mpr h')⟩
  · rw [if_neg h]
    py_eval []
    exact ⟨_, rfl, by positivity, fun h' => absurd h' h, fun _ => rfl⟩

example : ∃ V, Rizk 0.25 0.0001 1.2 0.078 = .ok V ∧ 0 < V := by
  obtain ⟨V, h, h0, -⟩ := C75_Rizk (mp := 0.25) (dp := 0.0001) (rhog := 1.2) (D := 0.078) (by norm_num) (by norm_num) (by norm_num) (by norm_num)
  exact ⟨V, h, h0⟩

/-- both ranges of Matsumoto's model occur: equal densities put the limit at 1.39 pipe diameters -/
example : coarseLimit 1 1 1 = 1.39 := by norm_num [coarseLimit]

end Verif.Saltation
