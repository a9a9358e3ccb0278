import Mathlib.Data.Real.Basic

/-!
The Schmidt-Appleman criterion: exhaust mixes with ambient air along a straight line in the plane of
temperature and vapour pressure, and a contrail forms when the line reaches saturation over water.
-/

namespace Verif.Spec

/-- Mixing along the line of slope `G` from ambient air at temperature `T` and vapour pressure `e`
reaches the saturation curve `sat` at some higher temperature, up to 332 K. -/
def ContrailForms (sat : ℝ → ℝ) (G T e : ℝ) : Prop :=
  ∃ T', T < T' ∧ T' ≤ 332 ∧ sat T' ≤ e + G * (T' - T)

end Verif.Spec
