import Verif.Spec.Rounding
import Verif.Lemmas.FloatPressureAlt
import Verif.Lemmas.PressureAltitude

/-!
# C121: accuracy of the pressure altitude in floating point
-/

namespace Verif.Props
open Verif Verif.Aero Verif.Spec

variable {f : Format} (M : Machine f)

/-- The altitude of a pressure, on both sides of the tropopause and at it. The test on the pressure
is exact, so rounding cannot select the other branch. The error is absolute, in metres. -/
theorem C121_pressure_altitude (hw : f.Wide) {p dT : ℝ} (hp : 1000 ≤ p ∧ p ≤ 120000)
    (hd : |dT| ≤ 100) :
    |(hIsa (flt M) ⟨p⟩ ⟨dT⟩).val - hIsa np p dT| ≤ 1.22e6 * f.u :=
  fl_hIsa M hw hp.1 hp.2 hd

/-- In double precision: to 0.14 nanometres. -/
theorem C121_pressure_altitude_float64 (M : Machine .binary64) {p dT : ℝ}
    (hp : 1000 ≤ p ∧ p ≤ 120000) (hd : |dT| ≤ 100) :
    |(hIsa (flt M) ⟨p⟩ ⟨dT⟩).val - hIsa np p dT| ≤ 1.4e-10 := by
  refine (C121_pressure_altitude M Format.binary64_wide hp hd).trans ?_
  rw [show Format.binary64.u = (2 : ℝ) ^ (-53 : ℤ) from rfl]
  norm_num

/-- In single precision: to 8 centimetres. -/
theorem C121_pressure_altitude_float32 (M : Machine .binary32) {p dT : ℝ}
    (hp : 1000 ≤ p ∧ p ≤ 120000) (hd : |dT| ≤ 100) :
    |(hIsa (flt M) ⟨p⟩ ⟨dT⟩).val - hIsa np p dT| ≤ 0.08 := by
  refine (C121_pressure_altitude M Format.binary32_wide hp hd).trans ?_
  rw [show Format.binary32.u = (2 : ℝ) ^ (-24 : ℤ) from rfl]
  norm_num

/-! Case: the pressure of the tropopause itself, where the branches meet, on a cold day. -/

example (M : Machine .binary64) :
    |(hIsa (flt M) ⟨22630⟩ ⟨-20⟩).val - 11000| ≤ 1.4e-10 := by
  have := C121_pressure_altitude_float64 M (p := 22630) (dT := -20) (by norm_num)
    (by norm_num [abs_of_neg])
  rwa [hIsa_strat (-20) le_rfl, div_self (by norm_num), Real.log_one, mul_zero, sub_zero] at this

end Verif.Props
