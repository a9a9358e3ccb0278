import Mathlib.Analysis.SpecialFunctions.Pow.Real
import Mathlib.Analysis.Calculus.Deriv.Basic

/-!
# Specification of the standard atmosphere (independent of the model)
-/

namespace Verif.Spec

open Classical in
/-- The temperature shift in force: `dT` limited to `[-25, 15]` K. -/
noncomputable def shift (dT : ℝ) : ℝ := if dT < -25 then -25 else if 15 < dT then 15 else dT

open Classical in
/-- Temperature of the shifted standard atmosphere. -/
noncomputable def isaTemp (h dT : ℝ) : ℝ :=
  if h ≤ 11000 then 288.15 + shift dT - 0.0065 * h else 216.65 + shift dT

/-- "`y` is within relative tolerance `tol` of `x`". -/
def Within (tol x y : ℝ) : Prop := |y - x| ≤ tol * |x|

/-- An atmosphere profile is hydrostatic at `h` with gravity `g`. -/
def HydrostaticAt (p rho : ℝ → ℝ) (g h : ℝ) : Prop := HasDerivAt p (-(rho h * g)) h

end Verif.Spec
