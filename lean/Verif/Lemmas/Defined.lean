import Verif.Lemmas.NR
import Verif.Lemmas.Crossover
import Verif.Lemmas.Thrust
import Verif.Lemmas.Geo
import Verif.Lemmas.Drag
import Verif.Lemmas.Fuel
import Verif.Model.Emission
import Verif.Props.Atmos

/-! The model over `NR` (with domain checks) agrees with the model over `ℝ`. -/
namespace Verif.Defined
open Verif.NR Verif.Aero

theorem b_sqrt {x : ℝ} (h : 0 ≤ x) : npNR.sqrt (val x) = val (Real.sqrt x) := partialMap_val _ _ _ h
theorem b_exp (x : ℝ) : npNR.exp (val x) = val (Real.exp x) := rfl
theorem b_log {x : ℝ} (h : 0 < x) : npNR.log (val x) = val (Real.log x) := partialMap_val _ _ _ h
theorem b_power {x : ℝ} (h : 0 < x) (y : ℝ) : npNR.power (val x) (val y) = val (x ^ y) :=
  power_val _ _ h
theorem b_power0 {x y : ℝ} (h : 0 ≤ x) (hy : 0 ≤ y) : npNR.power (val x) (val y) = val (x ^ y) := by
  rcases h.eq_or_lt with rfl | h
  · simp [npNR, NR.power, hy]
  · exact power_val _ _ h
theorem b_sin (x : ℝ) : npNR.sin (val x) = val (Real.sin x) := rfl
theorem b_cos (x : ℝ) : npNR.cos (val x) = val (Real.cos x) := rfl
theorem b_arcsin {x : ℝ} (h : -1 ≤ x ∧ x ≤ 1) : npNR.arcsin (val x) = val (Real.arcsin x) :=
  partialMap_val (fun x => -1 ≤ x ∧ x ≤ 1) _ _ h
theorem b_arccos {x : ℝ} (h : -1 ≤ x ∧ x ≤ 1) : npNR.arccos (val x) = val (Real.arccos x) :=
  partialMap_val (fun x => -1 ≤ x ∧ x ≤ 1) _ _ h
theorem b_arctan2 (x y : ℝ) : npNR.arctan2 (val x) (val y) = val (atan2R x y) := rfl
theorem b_abs (x : ℝ) : npNR.abs (val x) = val |x| := rfl
open Classical in
theorem b_where (a c x y : ℝ) : npNR.whereGt (val a) (val c) (val x) (val y) =
    val (if a > c then x else y) := by
  change (if a > c then val x else val y) = _
  split_ifs <;> rfl
theorem b_max (x y : ℝ) : npNR.maximum (val x) (val y) = val (max x y) := rfl
theorem b_min (x y : ℝ) : npNR.minimum (val x) (val y) = val (min x y) := rfl
theorem b_clip (x y z : ℝ) : npNR.clip (val x) (val y) (val z) = val (clipR x y z) := rfl
theorem b_interp4 (x a0 a1 a2 a3 f0 f1 f2 f3 : ℝ) :
    npNR.interp (val x) [val a0, val a1, val a2, val a3] [val f0, val f1, val f2, val f3] =
      val (interpR x [a0, a1, a2, a3] [f0, f1, f2, f3]) := rfl
theorem b_fmod {x y : ℝ} (h : y ≠ 0) : npNR.fmod (val x) (val y) = val (fmodR x y) :=
  partialMap_val (fun _ => y ≠ 0) (fun x => fmodR x y) x h
theorem b_pi : npNR.pi = val Real.pi := rfl

theorem atmos_def (h dT : ℝ) : atmos npNR (val h) (val dT) =
    (val (pressure np h dT), val (density np h dT), val (temperature np h dT)) :=
  (Props.C01_atmos_physical h dT).2.2.2.2

theorem temperature_def (h dT : ℝ) : temperature npNR (val h) (val dT) =
    val (temperature np h dT) := by rw [temperature, atmos_def]
theorem pressure_def (h dT : ℝ) : pressure npNR (val h) (val dT) = val (pressure np h dT) := by
  rw [pressure, atmos_def]
theorem density_def (h dT : ℝ) : density npNR (val h) (val dT) = val (density np h dT) := by
  rw [density, atmos_def]

theorem temperature_pos (h dT : ℝ) : 0 < temperature np h dT := by
  rw [temperature_eq]; exact temp_pos h dT

theorem vsound_def (h dT : ℝ) : vsound npNR (val h) (val dT) = val (vsound np h dT) := by
  have := temperature_pos h dT
  simp only [vsound, temperature_def, gamma, R, val_sci, val_mul]
  rw [b_sqrt (by positivity)]
  rfl

theorem tas2mach_def (v h dT : ℝ) : tas2mach npNR (val v) (val h) (val dT) =
    val (tas2mach np v h dT) := by
  rw [tas2mach, vsound_def, val_div _ _ (vsound_pos h dT).ne']; rfl
theorem mach2tas_def (v h dT : ℝ) : mach2tas npNR (val v) (val h) (val dT) =
    val (mach2tas np v h dT) := by
  rw [mach2tas, vsound_def, val_mul]; rfl
theorem eas2tas_def (v h dT : ℝ) : eas2tas npNR (val v) (val h) (val dT) =
    val (eas2tas np v h dT) := by
  have := density_pos h dT
  simp only [eas2tas, density_def, rho0, val_sci]
  rw [val_div _ _ this.ne', b_sqrt (by positivity), val_mul]; rfl
theorem tas2eas_def (v h dT : ℝ) : tas2eas npNR (val v) (val h) (val dT) =
    val (tas2eas np v h dT) := by
  have := density_pos h dT
  simp only [tas2eas, density_def, rho0, val_sci]
  rw [val_div _ _ (by norm_num), b_sqrt (by positivity), val_mul]; rfl

theorem root_arg {y : ℝ} (hy : 0 ≤ y) : 0 ≤ (1.0 + y) ^ (2.0 / 7.0 : ℝ) - 1.0 := by
  have := Comp.inv_nonneg hy
  norm_num at this ⊢
  exact this

theorem q_arg {u : ℝ} (hu : 0 ≤ u) : 0 ≤ (1.0 + u) ^ (3.5 : ℝ) - 1.0 := by
  have := Comp.F_nonneg hu
  unfold Comp.F at this
  norm_num at this ⊢
  exact this

theorem cas2tas_def (v h dT : ℝ) : cas2tas npNR (val v) (val h) (val dT) =
    val (cas2tas np v h dT) := by
  have hp := pressure_pos h dT
  have hr := density_pos h dT
  have hat : atmos np h dT = (pressure np h dT, density np h dT, temperature np h dT) := rfl
  simp only [cas2tas, atmos_def, hat]
  generalize pressure np h dT = p at *
  generalize density np h dT = r at *
  have hu : 0 ≤ 1.225 * v * v / (7.0 * 101325.0) := by
    rw [mul_assoc]; exact div_nonneg (mul_nonneg (by norm_num) (mul_self_nonneg v)) (by norm_num)
  have hq := q_arg hu
  have hy : 0 ≤ 101325.0 * ((1.0 + 1.225 * v * v / (7.0 * 101325.0)) ^ (3.5 : ℝ) - 1.0) / p := by
    positivity
  have hz := root_arg hy
  simp only [p0, rho0, val_sci, val_mul]
  rw [val_div _ (7.0 * 101325.0) (by norm_num), val_add, b_power (by positivity), val_sub, val_mul,
    val_div _ _ hp.ne', val_add, val_div (2.0) _ (by norm_num),
    b_power (by positivity), val_sub, val_div _ _ hr.ne', val_mul, b_sqrt (by positivity)]
  rfl

theorem tas2cas_def (v h dT : ℝ) : tas2cas npNR (val v) (val h) (val dT) =
    val (tas2cas np v h dT) := by
  have hp := pressure_pos h dT
  have hr := density_pos h dT
  have hat : atmos np h dT = (pressure np h dT, density np h dT, temperature np h dT) := rfl
  simp only [tas2cas, atmos_def, hat]
  generalize pressure np h dT = p at *
  generalize density np h dT = r at *
  have hu : 0 ≤ r * v * v / (7.0 * p) := by
    rw [mul_assoc]; exact div_nonneg (mul_nonneg hr.le (mul_self_nonneg v)) (by positivity)
  have hq := q_arg hu
  have hy : 0 ≤ p * ((1.0 + r * v * v / (7.0 * p)) ^ (3.5 : ℝ) - 1.0) / 101325.0 := by
    positivity
  have hz := root_arg hy
  rw [add_comm] at hz
  simp only [p0, rho0, val_sci, val_mul]
  rw [val_div _ (7.0 * p) (by positivity), val_add, b_power (by positivity), val_sub, val_mul,
    val_div _ (101325.0) (by norm_num), val_add, val_div (2.0) _ (by norm_num),
    b_power (by positivity), val_sub, val_div _ _ (by norm_num), val_mul,
    b_sqrt (by positivity)]
  rfl

theorem mach2cas_def (v h dT : ℝ) : mach2cas npNR (val v) (val h) (val dT) =
    val (mach2cas np v h dT) := by rw [mach2cas, mach2tas_def, tas2cas_def]; rfl
theorem cas2mach_def (v h dT : ℝ) : cas2mach npNR (val v) (val h) (val dT) =
    val (cas2mach np v h dT) := by rw [cas2mach, cas2tas_def, tas2mach_def]; rfl

theorem hIsa_def (p dT : ℝ) (hp : 0 < p) : hIsa npNR (val p) (val dT) = val (hIsa np p dT) := by
  simp only [hIsa, T0, p0, R, g0, beta, val_sci, val_add, val_neg, val_mul]
  rw [val_div _ p hp.ne', val_div _ (9.80665) (by norm_num), b_power (by positivity), val_mul,
    val_sub, val_div _ _ (by norm_num), val_div _ (9.80665) (by norm_num),
    val_div p _ (by norm_num), b_log (by positivity), val_mul, val_add, b_where]
  rfl

theorem crossoverAlt_def (v m dT : ℝ) : crossoverAlt npNR (val v) (val m) (val dT) =
    val (crossoverAlt np v m dT) := by
  have hm : 0 < max m 1e-4 := lt_of_lt_of_le (by norm_num) (le_max_right _ _)
  have hd : 0 < (0.2 * max m 1e-4 ^ 2 + 1.0) ^ (3.5 : ℝ) - 1.0 := by
    have := Comp.F_pos (show 0 < 0.2 * max m 1e-4 ^ 2 by positivity)
    unfold Comp.F at this
    rw [add_comm] at this
    norm_num at this ⊢
    exact this
  have hn : 0 ≤ (0.2 * (v / 340.293988) ^ 2 + 1.0) ^ (3.5 : ℝ) - 1.0 := by
    have := Comp.F_nonneg (show 0 ≤ 0.2 * (v / 340.293988) ^ 2 by positivity)
    unfold Comp.F at this
    rw [add_comm] at this
    norm_num at this ⊢
    exact this
  simp only [crossoverAlt, T0, a0, R, g0, beta, val_sci, val_add, val_neg, val_mul, b_max]
  rw [val_div v _ (by norm_num), val_pow _ _ (by norm_num), val_pow _ _ (by norm_num)]
  simp only [val_mul, val_add]
  rw [b_power (by positivity), b_power (by positivity), val_sub, val_sub, val_div _ _ hd.ne',
    val_div _ (9.80665) (by norm_num), b_power0 (by positivity) (by norm_num),
    val_div _ _ (by norm_num), val_sub, val_mul]
  rfl

end Verif.Defined
