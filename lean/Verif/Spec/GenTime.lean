import Mathlib.MeasureTheory.Integral.IntervalIntegral.Basic
import Mathlib.Analysis.SpecialFunctions.Integrals.Basic

/-!
# Duration of a climb or descent flown continuously (C147)
-/

namespace Verif.Spec

/-- Climb rate (m/s) of the WRAP schedule at an altitude (m): initial climb to 1500 ft, then up to the
altitude where constant CAS begins, then up to the altitude where constant Mach begins, then above. -/
noncomputable def climbRate (ic pre cas mach hCas hMach u : ℝ) : ℝ :=
  if u < 1500 * 0.3048 then ic else if u < hCas then pre else if u < hMach then cas else mach

/-- Rate of descent (m/s, positive) of the WRAP schedule: constant Mach down to its altitude, constant
CAS down to its altitude, then down to 1000 ft, then final approach. -/
noncomputable def sinkRate (mach cas post fa hMach hCas u : ℝ) : ℝ :=
  if hMach < u then mach else if hCas < u then cas else if 1000 * 0.3048 < u then post else fa

/-- The time it takes to pass from altitude `a` to altitude `b` at rate `r`. -/
noncomputable def passage (r : ℝ → ℝ) (a b : ℝ) : ℝ := ∫ u in a..b, 1 / r u

end Verif.Spec
