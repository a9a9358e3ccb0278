import Mathlib.Analysis.SpecialFunctions.Pow.Real

/-!
# Specification of airspeeds (independent of the model)
-/

namespace Verif.Spec

/-- Isentropic impact pressure (total minus static) of a flow with static pressure `p`,
density `rho` and speed `v`, for a gas with heat-capacity ratio 1.4. -/
noncomputable def impactPressure (p rho v : ℝ) : ℝ :=
  p * ((1 + rho * v ^ 2 / (7 * p)) ^ (3.5 : ℝ) - 1)

/-- `cas` is the calibrated airspeed of a flow: the speed that would give the same impact
pressure at sea level (101325 Pa, 1.225 kg/m³). -/
def IsCas (p rho tas cas : ℝ) : Prop :=
  0 ≤ cas ∧ impactPressure 101325 1.225 cas = impactPressure p rho tas

end Verif.Spec
