import Verif.Py

/-! # Model of `fluids/core.py`

Optional arguments are `Option`; numeric literals are the exact decimals written in the source. Functions that use only
`+ - * /` are over any field (so ℚ computes and ℝ is the idealised float). -/

namespace Verif.Core

section field
variable {K : Type _} [Field K] [DecidableEq K]

/-- constants/constants.py:59: constants/constants.py: `g = 9.80665` (standard gravity). -/
def g0 : K := 980665 / 100000

/-- core.py:240-274 -/
def thermal_diffusivity (k rho Cp : K) : Py K := k /ₚ (rho * Cp)

/-- core.py:326-381 -/
def Reynolds (V D : K) (rho mu nu : Option K) : Py K :=
  match rho, mu with
  | some rho, some mu => do
    let nu ← mu /ₚ rho
    V * D /ₚ nu
  | _, _ => match nu with
    | some nu => V * D /ₚ nu
    | none => .error .valueError

/-- core.py:438-441, 539-542, 644-647: the shared selection of the thermal diffusivity. -/
def pickAlpha (rho Cp k alpha : Option K) : Py K :=
  match rho, Cp, k with
  | some rho, some Cp, some k => k /ₚ (rho * Cp)
  | _, _, _ => match alpha with
    | some alpha => .ok alpha
    | none => .error .valueError

/-- core.py:384-442 -/
def Peclet_heat (V L : K) (rho Cp k alpha : Option K) : Py K := do
  let alpha ← pickAlpha rho Cp k alpha
  V * L /ₚ alpha

/-- core.py:445-481 -/
def Peclet_mass (V L D : K) : Py K := V * L /ₚ D

/-- core.py:484-543 -/
def Fourier_heat (t L : K) (rho Cp k alpha : Option K) : Py K := do
  let alpha ← pickAlpha rho Cp k alpha
  t * alpha /ₚ (L * L)

/-- core.py:546-582 -/
def Fourier_mass (t L D : K) : Py K := t * D /ₚ (L * L)

/-- core.py:585-648 -/
def Graetz_heat (V D x : K) (rho Cp k alpha : Option K) : Py K := do
  let alpha ← pickAlpha rho Cp k alpha
  V * D * D /ₚ (x * alpha)

/-- core.py:651-706 -/
def Schmidt (D : K) (mu nu rho : Option K) : Py K :=
  match rho, mu with
  | some rho, some mu => mu /ₚ (rho * D)
  | _, _ => match nu with
    | some nu => nu /ₚ D
    | none => .error .valueError

/-- core.py:709-768 (`D` may be None) -/
def Lewis (D alpha Cp k rho : Option K) : Py K :=
  match D with
  | none => .error .valueError
  | some D => match k, Cp, rho with
    | some k, some Cp, some rho => do
      let alpha ← k /ₚ (rho * Cp)
      alpha /ₚ D
    | _, _, _ => match alpha with
      | some alpha => alpha /ₚ D
      | none => .error .valueError

/-- core.py:771-816 -/
def Weber (V L rho sigma : K) : Py K := V * V * L * rho /ₚ sigma

/-- core.py:819-857 -/
def Mach (V c : K) : Py K := V /ₚ c

/-- core.py:917-961 -/
def Morton (rhol rhog mul sigma g : K) : Py K :=
  let mul2 := mul * mul
  g * mul2 * mul2 * (rhol - rhog) /ₚ (rhol * rhol * sigma * sigma * sigma)

/-- core.py:964-1002 -/
def Knudsen (path L : K) : Py K := path /ₚ L

/-- core.py:1005-1070 -/
def Prandtl (Cp k mu nu rho alpha : Option K) : Py K :=
  match k, Cp, mu with
  | some k, some Cp, some mu => Cp * mu /ₚ k
  | _, _, _ => match nu, rho, Cp, k with
    | some nu, some rho, some Cp, some k => nu * rho * Cp /ₚ k
    | _, _, _, _ => match nu, alpha with
      | some nu, some alpha => nu /ₚ alpha
      | _, _ => .error .valueError

/-- core.py:1142-1176 (uses the module constant `g`); `Eotvos = Bond` (1178). -/
def Bond (rhol rhog sigma L : K) : Py K := g0 * (rhol - rhog) * L * L /ₚ sigma

/-- core.py:1181-1218 -/
def Rayleigh (Pr Gr : K) : K := Pr * Gr

/-- core.py:1343-1384 -/
def Strouhal (f L V : K) : Py K := f * L /ₚ V
/-- core.py:1387-1432 -/
def Nusselt (h L k : K) : Py K := h * L /ₚ k
/-- core.py:1435-1472 -/
def Sherwood (Kc L D : K) : Py K := Kc * L /ₚ D
/-- core.py:1475-1519 -/
def Biot (h L k : K) : Py K := h * L /ₚ k
/-- core.py:1522-1564 -/
def Stanton (h V rho Cp : K) : Py K := h /ₚ (V * rho * Cp)
/-- core.py:1567-1609 -/
def Euler (dP rho V : K) : Py K := dP /ₚ (rho * V * V)
/-- core.py:1612-1656 -/
def Cavitation (P Psat rho V : K) : Py K := (P - Psat) /ₚ (1 / 2 * rho * V * V)
/-- core.py:1659-1697 -/
def Eckert (V Cp dT : K) : Py K := V * V /ₚ (Cp * dT)
/-- core.py:1700-1742 -/
def Jakob (Cp Hvap Te : K) : Py K := Cp * Te /ₚ Hvap
/-- core.py:1745-1788 -/
def Power_number (P L N rho : K) : Py K := P /ₚ (rho * N * N * N * L ^ 5)
/-- core.py:1791-1834 -/
def Drag (F A V rho : K) : Py K := F /ₚ (1 / 2 * A * rho * V * V)
/-- core.py:1837-1881 -/
def Stokes_number (V Dp D rhop mu : K) : Py K := rhop * V * (Dp * Dp) /ₚ (18 * mu * D)
/-- core.py:1884-1926 -/
def Capillary (V mu sigma : K) : Py K := V * mu /ₚ sigma
/-- core.py:1929-1974 -/
def Archimedes (L rhof rhop mu g : K) : Py K := L * L * L * rhof * (rhop - rhof) * g /ₚ (mu * mu)
/-- core.py:2021-2071 -/
def Suratman (L rho mu sigma : K) : Py K := rho * sigma * L /ₚ (mu * mu)
/-- core.py:2074-2125 -/
def Hagen (Re fd : K) : K := 1 / 2 * fd * Re * Re
/-- core.py:2128-2169 -/
def Bejan_L (dP L mu alpha : K) : Py K := dP * L * L /ₚ (alpha * mu)
/-- core.py:2172-2213 -/
def Bejan_p (dP Kp mu alpha : K) : Py K := dP * Kp /ₚ (alpha * mu)
/-- core.py:2216-2267 -/
def Boiling (G q Hvap : K) : Py K := q /ₚ (G * Hvap)
/-- core.py:2315-2346 -/
def relative_roughness (D roughness : K) : Py K := roughness /ₚ D

/-- core.py:2351-2391 -/
def nu_mu_converter (rho : K) (mu nu : Option K) : Py K :=
  match mu, nu with
  | some mu, none => mu /ₚ rho
  | none, some nu => .ok (nu * rho)
  | _, _ => .error .valueError

/-- core.py:2433-2464 -/
def K_from_f (fd L D : K) : Py K := fd * L /ₚ D
/-- core.py:2466-2497 -/
def f_from_K (Kl L D : K) : Py K := Kl * D /ₚ L
/-- core.py:2500-2528 -/
def K_from_L_equiv (L_D fd : K) : K := fd * L_D
/-- core.py:2531-2559 -/
def L_equiv_from_K (Kl fd : K) : Py K := Kl /ₚ fd
/-- core.py:2562-2588 -/
def L_from_K (Kl D fd : K) : Py K := Kl * D /ₚ fd
/-- core.py:2591-2622 -/
def dP_from_K (Kl rho V : K) : K := Kl * (1 / 2) * rho * V * V
/-- core.py:2625-2656 -/
def head_from_K (Kl V g : K) : Py K := Kl * (1 / 2) * V * V /ₚ g
/-- core.py:2659-2690 -/
def head_from_P (P rho g : K) : Py K := do (← P /ₚ rho) /ₚ g
/-- core.py:2693-2722 -/
def P_from_head (head rho g : K) : K := head * rho * g

/-- core.py:2732 -/
def zero_Celsius : K := 27315 / 100
/-- core.py:2735-2758 -/
def C2K (C : K) : K := C + zero_Celsius
/-- core.py:2761-2784 -/
def K2C (T : K) : K := T - zero_Celsius
/-- core.py:2787-2809 -/
def F2C (F : K) : K := (F - 32) / (18 / 10)
/-- core.py:2812-2834 -/
def C2F (C : K) : K := 18 / 10 * C + 32
/-- core.py:2837-2861 -/
def F2K (F : K) : K := (F - 32) / (18 / 10) + zero_Celsius
/-- core.py:2864-2888 -/
def K2F (T : K) : K := 18 / 10 * (T - zero_Celsius) + 32
/-- core.py:2891-2915 -/
def C2R (C : K) : K := 18 / 10 * (C + zero_Celsius)
/-- core.py:2918-2940 -/
def K2R (T : K) : K := 18 / 10 * T
/-- core.py:2943-2967 -/
def F2R (F : K) : K := F - 32 + 18 / 10 * zero_Celsius
/-- core.py:2970-2994 -/
def R2C (Ra : K) : K := Ra / (18 / 10) - zero_Celsius
/-- core.py:2997-3019 -/
def R2K (Ra : K) : K := Ra / (18 / 10)
/-- core.py:3022-3046 -/
def R2F (Ra : K) : K := Ra - 18 / 10 * zero_Celsius + 32

end field

noncomputable section real

/-- core.py:280-321 (`R` is the gas constant, a parameter here) -/
def c_ideal_gas (R T k MW : ℝ) : Py ℝ := do
  let Rspecific ← R * 1000 /ₚ MW
  psqrt (k * Rspecific * T)

/-- core.py:860-914 -/
def Confinement (D rhol rhog sigma g : ℝ) : Py ℝ := do
  (← psqrt (← sigma /ₚ (g * (rhol - rhog)))) /ₚ D

/-- core.py:1073-1139 -/
def Grashof (L beta T1 T2 : ℝ) (rho mu nu : Option ℝ) (g : ℝ) : Py ℝ :=
  match rho, mu with
  | some rho, some mu => do
    let nu ← mu /ₚ rho
    g * beta * |T2 - T1| * L * L * L /ₚ (nu * nu)
  | _, _ => match nu with
    | some nu => g * beta * |T2 - T1| * L * L * L /ₚ (nu * nu)
    | none => .error .valueError

/-- core.py:1221-1270 -/
def Froude (V L g : ℝ) (squared : Bool) : Py ℝ := do
  let Fr ← V /ₚ (← psqrt (L * g))
  if squared then return Fr * Fr else return Fr

/-- core.py:1273-1340 -/
def Froude_densimetric (V L rho1 rho2 : ℝ) (heavy : Bool) (g : ℝ) : Py ℝ := do
  let rho3 := if heavy then rho1 else rho2
  return (← V /ₚ (← psqrt (g * L))) * (← psqrt (← rho3 /ₚ (rho1 - rho2)))

/-- core.py:1977-2018 -/
def Ohnesorge (L rho mu sigma : ℝ) : Py ℝ := do mu /ₚ (← psqrt (L * rho * sigma))

/-- core.py:2270-2312 -/
def Dean (Re Di D : ℝ) : Py ℝ := do return (← psqrt (← Di /ₚ D)) * Re

/-- core.py:2393-2429 -/
def gravity (latitude H : ℝ) : ℝ :=
  let lat := latitude * Real.pi / 180
  9.780356 * (1 + 0.0052885 * Real.sin lat ^ 2 - 0.0000059 * Real.sin (2 * lat) ^ 2) - 3.086e-6 * H

end real

/-- core.py:3049: A line of an Engauge export, after `strip`/`split(",")`/`float`: blank, or two fields. The header of a curve is
read through its second field only. (String to number parsing is not modelled.) -/
inductive ELine (α : Type) where
  | blank
  | row (a b : α)
  deriving DecidableEq

/-- core.py:3053-3058 local state of `Engauge_2d_parser` -/
structure EState (α : Type) where
  z_values : List α := []
  x_lists : List (List α) := []
  y_lists : List (List α) := []
  working_xs : List α := []
  working_ys : List α := []
  new_curve : Bool := true

/-- core.py:3060-3075 loop body -/
def estep {α : Type} (s : EState α) : ELine α → EState α
  | .blank => { s with new_curve := true }
  | .row a b =>
    if s.new_curve then
      let s := { s with z_values := s.z_values ++ [b] }
      let s := if ¬ s.working_xs.isEmpty ∧ ¬ s.working_ys.isEmpty then
        { s with x_lists := s.x_lists ++ [s.working_xs], y_lists := s.y_lists ++ [s.working_ys] } else s
      { s with working_xs := [], working_ys := [], new_curve := false }
    else { s with working_xs := s.working_xs ++ [a], working_ys := s.working_ys ++ [b] }

/-- core.py:3049-3090 `Engauge_2d_parser(lines, flat=False)` -/
def engauge {α : Type} (lines : List (ELine α)) : List α × List (List α) × List (List α) :=
  let s := lines.foldl estep {}
  (s.z_values, s.x_lists ++ [s.working_xs], s.y_lists ++ [s.working_ys])

/-- core.py:3079-3088 `flat=True` -/
def engauge_flat {α : Type} (lines : List (ELine α)) : List α × List α × List α :=
  let (zs, xs, ys) := engauge lines
  let rows := (zs.zip (xs.zip ys)).flatMap fun p => (p.2.1.zip p.2.2).map fun q => (p.1, q.1, q.2)
  (rows.map (·.1), rows.map (·.2.1), rows.map (·.2.2))

end Verif.Core
