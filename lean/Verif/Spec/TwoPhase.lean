import Mathlib.Analysis.SpecialFunctions.Pow.Real
import Mathlib.Analysis.SpecialFunctions.Trigonometric.Basic

/-! Textbook quantities of pipe flow used to state the two-phase pressure drop properties: nothing here refers to the code. -/

open Real

noncomputable section

namespace Verif.Spec.TwoPhase

/-- Mean velocity of the mass flow `w` of a fluid of density `rho` in a circular pipe. -/
def velocity (w rho D : ℝ) : ℝ := w / (rho * (π / 4 * D ^ 2))

/-- Pipe Reynolds number `ρ V D / μ` of a mass flow. -/
def Re (w rho mu D : ℝ) : ℝ := rho * velocity w rho D * D / mu

/-- Darcy-Weisbach pressure drop of the mass flow `w` alone in the pipe, `f` giving the Darcy friction factor. -/
def drop (f : ℝ → ℝ) (w rho mu D L : ℝ) : ℝ := f (Re w rho mu D) * (L / D) * (rho * velocity w rho D ^ 2 / 2)

/-- Chisholm's form of the separated flow model, from the pressure drops of each phase flowing alone. -/
def separated (C Pl Pg : ℝ) : ℝ := Pl + C * √(Pl * Pg) + Pg

/-- Mass flux. -/
def flux (m D : ℝ) : ℝ := m / (π / 4 * D ^ 2)

/-- Density of the homogeneous mixture of quality `x`: specific volumes add. -/
def rhoH (x rhol rhog : ℝ) : ℝ := (x / rhog + (1 - x) / rhol)⁻¹

/-- Squared Froude number of a mass flux at a given density, with standard gravity. -/
def Fr (m D rho : ℝ) : ℝ := flux m D ^ 2 / (9.80665 * D * rho ^ 2)

/-- Weber number of a mass flux at a given density. -/
def We (m D rho sigma : ℝ) : ℝ := flux m D ^ 2 * D / (sigma * rho)

/-- Confinement number: capillary length over diameter. -/
def Co (D rhol rhog sigma : ℝ) : ℝ := √(sigma / (9.80665 * (rhol - rhog))) / D

/-! Documented multipliers; `Γ2` is the ratio of the gas-only to the liquid-only pressure drop and `G` the mass flux. -/

/-- Friedel: the interaction term added to `(1-x)² ΔP_lo + x² ΔP_go`. -/
def friedelY (m x rhol rhog mul mug sigma D : ℝ) : ℝ :=
  3.24 * (x ^ (0.78 : ℝ) * (1 - x) ^ (0.224 : ℝ)) *
    ((rhol / rhog) ^ (0.91 : ℝ) * (mug / mul) ^ (0.19 : ℝ) * (1 - mug / mul) ^ (0.7 : ℝ)) /
    (Fr m D (rhoH x rhol rhog) ^ (0.0454 : ℝ) * We m D (rhoH x rhol rhog) sigma ^ (0.035 : ℝ))

/-- Grønnerud: the Froude friction term. -/
def gronnerudF (Fr : ℝ) : ℝ := if 1 ≤ Fr then 1 else Fr ^ (0.3 : ℝ) + 0.0055 * log (1 / Fr) ^ 2

/-- Grønnerud's multiplier. -/
def gronnerud (m x rhol rhog mul mug D : ℝ) : ℝ :=
  1 + gronnerudF (Fr m D rhol) * (x + 4 * (x ^ (1.8 : ℝ) - x ^ 10 * √(gronnerudF (Fr m D rhol)))) * (rhol / rhog / (mul / mug) ^ (0.25 : ℝ) - 1)

/-- Chisholm's B. -/
def chisholmB (Γ G : ℝ) : ℝ :=
  if Γ ≤ 9.5 then (if G ≤ 500 then 4.8 else if G < 1900 then 2400 / G else 55 / √G)
  else if Γ ≤ 28 then (if G ≤ 600 then 520 / (Γ * √G) else 21 / Γ)
  else 15000 / (Γ ^ 2 * √G)

/-- Chisholm's B in the Baroczy-Chisholm model. -/
def baroczyB (Γ G : ℝ) : ℝ := if Γ ≤ 9.5 then 55 / √G else if Γ ≤ 28 then 520 / (Γ * √G) else 15000 / (Γ ^ 2 * √G)

/-- Chisholm's multiplier with friction exponent `n`. -/
def chisholm (B n x Γ2 : ℝ) : ℝ := 1 + (Γ2 - 1) * (B * x ^ ((2 - n) / 2) * (1 - x) ^ ((2 - n) / 2) + x ^ (2 - n))

/-- Müller-Steinhagen and Heck. -/
def msh (x Plo Pgo : ℝ) : ℝ := (Plo + 2 * (Pgo - Plo) * x) * (1 - x) ^ (1 / 3 : ℝ) + Pgo * x ^ 3

/-- Lombardi and Pedrocchi. -/
def lombardi (m x rhol rhog sigma D L : ℝ) : ℝ :=
  0.83 * flux m D ^ (1.4 : ℝ) * sigma ^ (0.4 : ℝ) * L / (D ^ (1.2 : ℝ) * rhoH x rhol rhog ^ (0.866 : ℝ))

/-- Theissing: the friction exponent of one phase from its drop alone (quality `y` of that phase) and the drop of the whole flow. -/
def theissingN (n1 n2 Pl Pg : ℝ) : ℝ := (n1 + n2 * (Pg / Pl) ^ (0.1 : ℝ)) / (1 + (Pg / Pl) ^ (0.1 : ℝ))

/-- Theissing's ε. -/
def theissingE (n rhol rhog : ℝ) : ℝ := 3 - 2 * (2 * √(rhol / rhog) / (1 + rhol / rhog)) ^ (0.7 / n)

/-- Theissing's pressure drop. -/
def theissing (n ε x Plo Pgo : ℝ) : ℝ := (Plo ^ (1 / (n * ε)) * (1 - x) ^ (1 / ε) + Pgo ^ (1 / (n * ε)) * x ^ (1 / ε)) ^ (n * ε)

/-- Turbulent-turbulent Lockhart-Martinelli parameter. -/
def Xtt (x rhol rhog mul mug : ℝ) : ℝ := ((1 - x) / x) ^ (0.9 : ℝ) * (rhog / rhol) ^ (0.5 : ℝ) * (mul / mug) ^ (0.1 : ℝ)

/-- Jung and Radermacher's multiplier. -/
def jung (x rhol rhog mul mug : ℝ) : ℝ := 12.82 * Xtt x rhol rhog mul mug ^ (-1.47 : ℝ) * (1 - x) ^ (1.8 : ℝ)

/-- Tran's multiplier. -/
def tran (Co x Γ2 : ℝ) : ℝ := 1 + (4.3 * Γ2 - 1) * (Co * x ^ (0.875 : ℝ) * (1 - x) ^ (0.875 : ℝ) + x ^ (1.75 : ℝ))

/-- Chen's modification of Friedel; `Bo` is a quarter of the Bond number. -/
def chenΩ (Bo Re_lo Re_g We : ℝ) : ℝ :=
  if Bo < 2.5 then 0.0333 * Re_lo ^ (0.45 : ℝ) / (Re_g ^ (0.09 : ℝ) * (1 + 0.4 * exp (-Bo))) else We ^ (0.2 : ℝ) / (2.5 + 0.06 * Bo)

/-- Zhang and Webb's multiplier, from the reduced pressure. -/
def zhangWebb (x Pr : ℝ) : ℝ := (1 - x) ^ 2 + 2.87 * x ^ 2 / Pr + 1.68 * x ^ (0.8 : ℝ) * (1 - x) ^ (0.25 : ℝ) * Pr ^ (-1.64 : ℝ)

/-- Bankoff's γ. -/
def bankoffγ (x rhol rhog : ℝ) : ℝ := (0.71 + 2.35 * (rhog / rhol)) / (1 + (1 - x) / x * (rhog / rhol))

/-- Bankoff's multiplier. -/
def bankoff (x rhol rhog : ℝ) : ℝ :=
  (1 / (1 - x) * (1 - bankoffγ x rhol rhog * (1 - rhog / rhol)) ^ (3 / 7 : ℝ) * (1 + x * (rhol / rhog - 1))) ^ (7 / 4 : ℝ)

/-- Xu and Fang's multiplier. -/
def xuFang (x Y2 Fr We : ℝ) : ℝ :=
  Y2 * x ^ 3 + (1 - x ^ (2.59 : ℝ)) ^ (0.632 : ℝ) * (1 + 2 * x ^ (1.17 : ℝ) * (Y2 - 1) + 0.00775 * x ^ (-0.475 : ℝ) * Fr ^ (0.535 : ℝ) * We ^ (0.188 : ℝ))

/-- Yu and France's X. -/
def yuX (x rhol rhog Re_l Re_g : ℝ) : ℝ := 18.65 * (rhog / rhol) ^ (0.5 : ℝ) * ((1 - x) / x) * Re_g ^ (0.1 : ℝ) / Re_l ^ (0.5 : ℝ)

/-- Hwang and Kim's C. -/
def hwangC (Re_lo X Co : ℝ) : ℝ := 0.227 * Re_lo ^ (0.452 : ℝ) * X ^ (-0.32 : ℝ) * Co ^ (-0.82 : ℝ)

/-- Wang, Chiang and Lu's C at low mass fluxes. -/
def wangC (X Re_lo rhol rhog mul mug : ℝ) : ℝ :=
  0.000004566 * X ^ (0.128 : ℝ) * Re_lo ^ (0.938 : ℝ) * (rhol / rhog) ^ (-2.15 : ℝ) * (mul / mug) ^ (5.1 : ℝ)

/-- Kim and Mudawar's C; `Su` is the gas Suratman number. -/
def kimC (Re_l Re_g Re_lo Su rhol rhog : ℝ) : ℝ :=
  if Re_l < 2000 then
    (if Re_g < 2000 then 3.5e-5 * Re_lo ^ (0.44 : ℝ) * Su ^ (0.5 : ℝ) * (rhol / rhog) ^ (0.48 : ℝ)
     else 0.0015 * Re_lo ^ (0.59 : ℝ) * Su ^ (0.19 : ℝ) * (rhol / rhog) ^ (0.36 : ℝ))
  else
    (if Re_g < 2000 then 8.7e-4 * Re_lo ^ (0.17 : ℝ) * Su ^ (0.5 : ℝ) * (rhol / rhog) ^ (0.14 : ℝ)
     else 0.39 * Re_lo ^ (0.03 : ℝ) * Su ^ (0.10 : ℝ) * (rhol / rhog) ^ (0.35 : ℝ))

/-- Kim and Mudawar's own friction factor. -/
def kimF (Re : ℝ) : ℝ := if Re < 2000 then 64 / Re else if Re < 20000 then 0.316 / Re ^ (0.25 : ℝ) else 0.184 / Re ^ (0.2 : ℝ)

/-- The friction factor of Lockhart and Martinelli with transition at `Rec`. -/
def lockhartF (Rec Re : ℝ) : ℝ := if Re < Rec then 64 / Re else 0.184 / Re ^ (0.2 : ℝ)

/-- The table of Lockhart and Martinelli's C (liquid turbulent?, gas turbulent?). -/
def lockhartC (liquidTurbulent gasTurbulent : Prop) [Decidable liquidTurbulent] [Decidable gasTurbulent] : ℝ :=
  if liquidTurbulent then (if gasTurbulent then 20 else 10) else (if gasTurbulent then 12 else 5)

end Verif.Spec.TwoPhase
