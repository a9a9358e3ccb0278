import Mathlib.Data.Real.Basic

/-!
# Magnitudes far beyond those of flight (independent of the model)
-/

namespace Verif.Spec

/-- Wing area in m², drag coefficients, mass in kg, airspeed in kt, altitude in ft, vertical rate in
ft/min, acceleration in m/s² that cause no overflow in the computation of drag. -/
structure Moderate (area cd0 k mass tas alt vs acc : ℝ) : Prop where
  hArea : 0 ≤ area ∧ area ≤ 10000
  hCd0 : 0 ≤ cd0 ∧ cd0 ≤ 10
  hK : 0 ≤ k ∧ k ≤ 10
  hMass : |mass| ≤ 10000000
  hTas : |tas| ≤ 10000
  hAlt : |alt| ≤ 1000000
  hVs : |vs| ≤ 1000000
  hAcc : |acc| ≤ 10000

/-- `Ω` is the overflow threshold of double precision (`2 ^ 1024` less half a unit in the last place),
with a margin. -/
structure Double (Ω : ℝ) : Prop where
  lower : (2 : ℝ) ^ 1023 ≤ Ω
  upper : Ω ≤ (2 : ℝ) ^ 1024

/-- The same for single precision. -/
structure Single (Ω : ℝ) : Prop where
  lower : (2 : ℝ) ^ 127 ≤ Ω
  upper : Ω ≤ (2 : ℝ) ^ 128

end Verif.Spec
