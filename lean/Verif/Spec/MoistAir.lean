import Mathlib.Data.Real.Basic

/-! Moist air as a mixture of two ideal gases (specific gas constants 461.51 and 287.05 J/(kg K)). -/

namespace Verif.Spec

/-- Partial densities of water vapour and dry air, and temperature. -/
structure MoistAir where
  vapour : ℝ
  dry : ℝ
  temp : ℝ
  hVapour : 0 ≤ vapour
  hDry : 0 < dry
  hTemp : 0 < temp

namespace MoistAir
variable (m : MoistAir)
/-- Mass of vapour per mass of air. -/
noncomputable def specificHumidity : ℝ := m.vapour / (m.vapour + m.dry)
/-- Partial pressure of the vapour. -/
noncomputable def vapourPressure : ℝ := m.vapour * 461.51 * m.temp
/-- Total pressure. -/
noncomputable def pressure : ℝ := m.vapourPressure + m.dry * 287.05 * m.temp
end MoistAir

end Verif.Spec
