import Verif.Py
import Mathlib.Analysis.SpecialFunctions.Pow.Real

/-! Model of `fluids/saltation.py`. -/

open Real

noncomputable section

namespace Verif.Saltation

/-- standard gravity (constants.py:59) -/
def g : ℝ := 9.80665

/-- `Rizk` (saltation.py:110-116) -/
def Rizk (mp dp rhog D : ℝ) : Py ℝ := do
  let alpha : ℝ := 1440.0 * dp + 1.96
  let beta : ℝ := 1100.0 * dp + 2.5
  let term1 : ℝ ← (0.1 : ℝ) ^ₚ alpha
  let s : ℝ ← psqrt (g * D)
  let Frs_sorta : ℝ ← 1 /ₚ s
  let w : ℝ ← Frs_sorta ^ₚ beta
  let e2a : ℝ ← mp /ₚ rhog
  let expression2 : ℝ ← e2a /ₚ (π / 4 * D * D)
  let q : ℝ ← expression2 /ₚ (term1 * w)
  let n : ℝ ← 1 /ₚ (1 + beta)
  q ^ₚ n

/-- `Matsumoto_1974` (saltation.py:179-184) -/
def Matsumoto_1974 (mp rhop dp rhog D : ℝ) (Vterminal : ℝ := 1) : Py ℝ := do
  let A : ℝ := π / 4 * D ^ 2
  let s1 : ℝ ← psqrt (g * dp)
  let Frp : ℝ ← Vterminal /ₚ s1
  let s2 : ℝ ← psqrt (g * D)
  let Frs_sorta : ℝ ← 1 /ₚ s2
  let r : ℝ ← rhop /ₚ rhog
  let sr : ℝ ← psqrt r
  let w : ℝ ← (Frp / 10) ^ₚ (-1.75 : ℝ)
  let e2a : ℝ ← mp /ₚ rhog
  let expression2 : ℝ ← e2a /ₚ A
  let q : ℝ ← expression2 /ₚ (0.448 * sr * w * (Frs_sorta / 10) ^ 3)
  q ^ₚ (1 / 4)

/-- `Matsumoto_1975` (saltation.py:247-252) -/
def Matsumoto_1975 (mp rhop dp rhog D : ℝ) (Vterminal : ℝ := 1) : Py ℝ := do
  let A : ℝ := π / 4 * D ^ 2
  let s1 : ℝ ← psqrt (g * dp)
  let Frp : ℝ ← Vterminal /ₚ s1
  let s2 : ℝ ← psqrt (g * D)
  let Frs_sorta : ℝ ← 1 /ₚ s2
  let r : ℝ ← rhop /ₚ rhog
  let sr : ℝ ← r ^ₚ (0.55 : ℝ)
  let w : ℝ ← (Frp / 10) ^ₚ (-2.3 : ℝ)
  let e2a : ℝ ← mp /ₚ rhog
  let expression2 : ℝ ← e2a /ₚ A
  let q : ℝ ← expression2 /ₚ (1.11 * sr * w * (Frs_sorta / 10) ^ 3)
  q ^ₚ (1 / 4)

/-- `Matsumoto_1977` for coarse particles (saltation.py:336-341) -/
def Matsumoto_1977_coarse (mp rhop dp rhog D Vterminal : ℝ) : Py ℝ := do
  let A : ℝ := π / 4 * D ^ 2
  let s1 : ℝ ← psqrt (g * dp)
  let Frp : ℝ ← Vterminal /ₚ s1
  let s2 : ℝ ← psqrt (g * D)
  let Frs_sorta : ℝ ← 1 /ₚ s2
  let r : ℝ ← rhop /ₚ rhog
  let sr : ℝ ← r ^ₚ (1.06 : ℝ)
  let w : ℝ ← (Frp / 10) ^ₚ (-3.7 : ℝ)
  let ws : ℝ ← (Frs_sorta / 10) ^ₚ (3.61 : ℝ)
  let e2a : ℝ ← mp /ₚ rhog
  let expression2 : ℝ ← e2a /ₚ A
  let q : ℝ ← expression2 /ₚ (0.373 * sr * w * ws)
  q ^ₚ (1 / 4.61)

/-- `Matsumoto_1977` for fine particles (saltation.py:343-346) -/
def Matsumoto_1977_fine (mp dp rhog D : ℝ) : Py ℝ := do
  let A : ℝ := π / 4 * D ^ 2
  let s2 : ℝ ← psqrt (g * D)
  let Frs_sorta : ℝ ← 1 /ₚ s2
  let r : ℝ ← dp /ₚ D
  let w : ℝ ← r ^ₚ (1.43 : ℝ)
  let e2a : ℝ ← mp /ₚ rhog
  let expression2 : ℝ ← e2a /ₚ A
  let q : ℝ ← expression2 /ₚ (5560 * w * (Frs_sorta / 10) ^ 4)
  q ^ₚ (0.2 : ℝ)

/-- `Matsumoto_1977` (saltation.py:333-346) -/
def Matsumoto_1977 (mp rhop dp rhog D : ℝ) (Vterminal : ℝ := 1) : Py ℝ := do
  let r : ℝ ← rhop /ₚ rhog
  let w : ℝ ← r ^ₚ (-0.74 : ℝ)
  if 1.39 * D * w < dp then Matsumoto_1977_coarse mp rhop dp rhog D Vterminal else Matsumoto_1977_fine mp dp rhog D

/-- `Schade` (saltation.py:413-416) -/
def Schade (mp rhop dp rhog D : ℝ) : Py ℝ := do
  let r1 : ℝ ← D /ₚ dp
  let w1 : ℝ ← r1 ^ₚ (0.025 : ℝ)
  let r2 : ℝ ← rhop /ₚ rhog
  let w2 : ℝ ← r2 ^ₚ (0.34 : ℝ)
  let A : ℝ ← psqrt (g * D)
  let C : ℝ ← mp /ₚ (rhog * π / 4 * D ^ 2)
  let w3 : ℝ ← C ^ₚ (0.11 : ℝ)
  (w3 * (w1 * w2) * A) ^ₚ (1 / 1.11)

/-- `Weber_saltation` (saltation.py:491-497); the argument `rhop`, which the code never reads, is left out -/
def Weber_saltation (mp dp rhog D : ℝ) (Vterminal : ℝ := 4) : Py ℝ := do
  let r : ℝ ← dp /ₚ D
  let w : ℝ ← r ^ₚ (0.1 : ℝ)
  let term1 : ℝ := if Vterminal ≤ 3 then (7 + 8 / 3 * Vterminal) * w else 15 * w
  let s : ℝ ← psqrt (g * D)
  let term2 : ℝ ← 1 /ₚ s
  let e : ℝ ← mp /ₚ rhog
  let term3 : ℝ ← e /ₚ (π / 4 * D ^ 2)
  let u : ℝ ← term1 /ₚ term2
  let s3 : ℝ ← psqrt term3
  let s4 : ℝ ← psqrt s3
  (u * s4) ^ₚ (1 / 1.25)

/-- `Geldart_Ling` (saltation.py:560-564) -/
def Geldart_Ling (mp rhog D mug : ℝ) : Py ℝ := do
  let Gs : ℝ ← mp /ₚ (0.25 * π * D * D)
  let q : ℝ ← Gs /ₚ D
  if q ≤ 47000 then do
    let a : ℝ ← Gs ^ₚ (0.465 : ℝ)
    let b : ℝ ← D ^ₚ (-0.01 : ℝ)
    let c : ℝ ← mug ^ₚ (0.055 : ℝ)
    let d : ℝ ← rhog ^ₚ (-0.42 : ℝ)
    pure (1.5 * a * b * c * d)
  else do
    let a : ℝ ← Gs ^ₚ (0.302 : ℝ)
    let b : ℝ ← D ^ₚ (0.153 : ℝ)
    let c : ℝ ← mug ^ₚ (0.055 : ℝ)
    let d : ℝ ← rhog ^ₚ (-0.42 : ℝ)
    pure (8.7 * a * b * c * d)

end Verif.Saltation
