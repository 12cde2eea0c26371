import Verif.Model.PolyEval

/-! # The dilogarithm for entropy integrals: fluids/numerics/__init__.py `polylog2`; the decimal literals are exact. -/

namespace Verif.Polylog
open Verif.PolyEval

/-- numerics/__init__.py:5148 `p_0_70` -/
def p_0_70 : List ℚ := [0.06184590404457956, -0.7460693871557973, 2.2435704485433376, -2.1944070385048526, 0.3382265629285811, 0.2791966558569478]

/-- numerics/__init__.py:5149 `q_0_07` -/
def q_0_07 : List ℚ := [-0.005308735283483908, 0.1823421262956287, -1.2364596896290079, 2.9897802200092296, -2.9365321202088004, 1.0]

/-- numerics/__init__.py:5150 `p_07_099` -/
def p_07_099 : List ℚ := [7543860.817140365, -10254250.429758755, -4186383.973408412, 7724476.972409749, -3130743.609030545, 600806.068543299, -62981.15051292659, 3696.7937385473397, -114.06795167646395, 1.4406337969700391]

/-- numerics/__init__.py:5151 `q_07_099` -/
def q_07_099 : List ℚ := [-1262997.3422452002, 10684514.56076485, -16931658.916668657, 10275996.02842749, -3079141.9506451315, 511164.4690136096, -49254.56172495263, 2738.0399260270983, -81.36790509581284, 1.0]

/-- numerics/__init__.py:5152 `p_099_1` -/
def p_099_1 : List ℚ := [8.548256176424551e34, 1.8485781239087334e35, -2.1706889553798647e34, 8.318563643438321e32, -1.559802348661511e31, 1.698939241177209e29, -1.180285031647229e27, 5.531049937687143e24, -1.8085903366375877e22, 4.203276811951035e19, -6.98211620300421e16, 82281997048841.92, -67157299796.61345, 36084814.54808544, -11478.108105137717, 1.6370226052761176]

/-- numerics/__init__.py:5153 `q_099_1` -/
def q_099_1 : List ℚ := [-1.9763570499484274e35, 1.4813997374958851e35, -1.4773854824041134e34, 5.38853721252814e32, -9.882387315028929e30, 1.0635231532999732e29, -7.334629044071992e26, 3.420655574477631e24, -1.1147787784365177e22, 2.584530363912858e19, -4.285376337404043e16, 50430830490687.56, -41115254924.43107, 22072284.971253656, -7015.799744041691, 1.0]

noncomputable section

/-- numerics/__init__.py:5199: the quotient of the two polynomials at the shifted argument -/
def ratio (p q : List ℚ) (offset : ℚ) (x : ℝ) : Py ℝ := horner (p.map fun c : ℚ => (c : ℝ)) (x - offset) /ₚ horner (q.map fun c : ℚ => (c : ℝ)) (x - offset)

/-- numerics/__init__.py:5155-5199 `polylog2` -/
def polylog2 (x : ℝ) : Py ℝ :=
  if 0 ≤ x ∧ x ≤ 0.7 then ratio p_0_70 q_0_07 0.26 x
  else if 0.7 < x ∧ x ≤ 0.99 then ratio p_07_099 q_07_099 0.95 x
  else if 0.99 < x ∧ x ≤ 1 then ratio p_099_1 q_099_1 0.999 x
  else .error .valueError

end

end Verif.Polylog
