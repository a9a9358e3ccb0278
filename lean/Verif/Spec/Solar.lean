import Mathlib.Analysis.SpecialFunctions.Trigonometric.Basic

/-!
# Position of the sun (Spencer 1971), independent of the model
-/

namespace Verif.Spec
open Real

/-- Fractional year in radians for day number `n` (1 January is day 1). -/
noncomputable def yearAngle (n : ℝ) : ℝ := 2 * π * (n - 1) / 365

/-- Declination of the sun in degrees: the latitude where it stands in the zenith. -/
noncomputable def sunLat (n : ℝ) : ℝ :=
  let g := yearAngle n
  180 / π * (0.006918 - 0.399912 * cos g + 0.070257 * sin g - 0.006758 * cos (2 * g) +
    0.000907 * sin (2 * g) - 0.002697 * cos (3 * g) + 0.00148 * sin (3 * g))

/-- Apparent solar time minus mean solar time in minutes. -/
noncomputable def equationOfTime (n : ℝ) : ℝ :=
  let g := yearAngle n
  229.18 * (0.000075 + 0.001868 * cos g - 0.032077 * sin g - 0.014615 * cos (2 * g) -
    0.040849 * sin (2 * g))

/-- Longitude in degrees where the sun stands in the zenith, `hour` hours after midnight UTC: the sun
crosses Greenwich at noon minus the equation of time and moves 15° west per hour. -/
noncomputable def sunLon (n hour : ℝ) : ℝ := 15 * (12 - equationOfTime n / 60 - hour)

end Verif.Spec
