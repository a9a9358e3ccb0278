import Verif.Spec.Rounding
import Verif.Lemmas.FloatCrossover

/-!
# C121: accuracy of the crossover altitude in floating point
-/

namespace Verif.Props
open Verif Verif.Aero Verif.Spec

variable {f : Format} (M : Machine f)

/-- The altitude at which a calibrated airspeed and a Mach number are the same speed. The error is
absolute, in metres: the altitude is zero where the two agree at sea level. -/
theorem C121_crossover (hw : f.Wide) {v m dT : ℝ} (hv : 30 ≤ v ∧ v ≤ 400) (hm : 0.1 ≤ m ∧ m ≤ 1)
    (hd : |dT| ≤ 100) :
    |(crossoverAlt (flt M) ⟨v⟩ ⟨m⟩ ⟨dT⟩).val - crossoverAlt np v m dT| ≤
      (8.8e6 + 9.5e10 / v ^ 2 + 8.3e5 / m ^ 2) * f.u := by
  have := fl_crossover M hw (nv := 0) (nm := 0)
    (Ap.exact (u := f.u) (L := 9) (b := v) (le_trans (by norm_num) hv.1) (hv.2.trans (by norm_num)))
    (Ap.exact (u := f.u) (L := 4) (b := m) (le_trans (by norm_num) hm.1) (hm.2.trans (by norm_num)))
    le_rfl (by norm_num) le_rfl (by norm_num) hv.1 hv.2 hm.1 hm.2 hd
  simpa only [mul_zero, add_zero] using this

/-- In double precision: to 22 nanometres. -/
theorem C121_crossover_float64 (M : Machine .binary64) {v m dT : ℝ} (hv : 30 ≤ v ∧ v ≤ 400)
    (hm : 0.1 ≤ m ∧ m ≤ 1) (hd : |dT| ≤ 100) :
    |(crossoverAlt (flt M) ⟨v⟩ ⟨m⟩ ⟨dT⟩).val - crossoverAlt np v m dT| ≤ 2.2e-8 := by
  refine (C121_crossover M Format.binary64_wide hv hm hd).trans ?_
  have h1 : 9.5e10 / v ^ 2 ≤ 9.5e10 / 30 ^ 2 :=
    div_le_div_of_nonneg_left (by norm_num) (by norm_num) (by nlinarith [hv.1])
  have h2 : 8.3e5 / m ^ 2 ≤ 8.3e5 / 0.1 ^ 2 :=
    div_le_div_of_nonneg_left (by norm_num) (by norm_num) (by nlinarith [hm.1])
  calc (8.8e6 + 9.5e10 / v ^ 2 + 8.3e5 / m ^ 2) * Format.binary64.u
      ≤ (8.8e6 + 9.5e10 / 30 ^ 2 + 8.3e5 / 0.1 ^ 2) * Format.binary64.u :=
        mul_le_mul_of_nonneg_right (by linarith) Format.binary64.u_pos.le
    _ ≤ _ := by
        rw [show Format.binary64.u = (2 : ℝ) ^ (-53 : ℤ) from rfl]
        norm_num

/-- In single precision, at the speeds of an airliner: to 2 metres. -/
theorem C121_crossover_float32 (M : Machine .binary32) {v m dT : ℝ} (hv : 80 ≤ v ∧ v ≤ 400)
    (hm : 0.4 ≤ m ∧ m ≤ 1) (hd : |dT| ≤ 100) :
    |(crossoverAlt (flt M) ⟨v⟩ ⟨m⟩ ⟨dT⟩).val - crossoverAlt np v m dT| ≤ 2 := by
  refine (C121_crossover M Format.binary32_wide ⟨by linarith [hv.1], hv.2⟩
    ⟨le_trans (by norm_num) hm.1, hm.2⟩ hd).trans ?_
  have h1 : 9.5e10 / v ^ 2 ≤ 9.5e10 / 80 ^ 2 :=
    div_le_div_of_nonneg_left (by norm_num) (by norm_num) (by nlinarith [hv.1])
  have h2 : 8.3e5 / m ^ 2 ≤ 8.3e5 / 0.4 ^ 2 :=
    div_le_div_of_nonneg_left (by norm_num) (by norm_num) (by nlinarith [hm.1])
  calc (8.8e6 + 9.5e10 / v ^ 2 + 8.3e5 / m ^ 2) * Format.binary32.u
      ≤ (8.8e6 + 9.5e10 / 80 ^ 2 + 8.3e5 / 0.4 ^ 2) * Format.binary32.u :=
        mul_le_mul_of_nonneg_right (by linarith) Format.binary32.u_pos.le
    _ ≤ _ := by
        rw [show Format.binary32.u = (2 : ℝ) ^ (-24 : ℤ) from rfl]
        norm_num

/-! Case: 150 m/s and Mach 0.78 on a hot day. -/

example (M : Machine .binary64) :
    |(crossoverAlt (flt M) ⟨150⟩ ⟨0.78⟩ ⟨15⟩).val - crossoverAlt np 150 0.78 15| ≤ 2.2e-8 :=
  C121_crossover_float64 M (by norm_num) (by norm_num) (by norm_num [abs_of_pos])

end Verif.Props
