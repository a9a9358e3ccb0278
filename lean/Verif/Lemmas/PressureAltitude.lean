import Verif.Lemmas.Airspeed
import Verif.Lemmas.Numeric

namespace Verif.Aero
open Verif.Spec Verif.Num

/-- Exponent of the tropospheric inversion, `0.0065 R / g0`. -/
noncomputable def aExp : ℝ := 0.0065 * 287.05287 / 9.80665

/-- Tropospheric branch of `h_isa` in closed form. -/
theorem hIsa_trop {p : ℝ} (dT : ℝ) (hp : 22630 < p) :
    hIsa np p dT = (288.15 + dT) / 0.0065 * (1 - (p / 101325) ^ aExp) := by
  have hpp : 0 < p := by linarith
  simp only [hIsa]
  simp only [np, T0, beta, R, g0, p0]
  rw [if_pos (by norm_num; exact hp)]
  have e : ((101325.0 : ℝ) / p) ^ (-0.0065 * 287.05287 / 9.80665 : ℝ) = (p / 101325) ^ aExp := by
    have : ((101325.0 : ℝ) / p) = (p / 101325)⁻¹ := by rw [inv_div]; norm_num
    rw [this, Real.inv_rpow (by positivity), ← Real.rpow_neg (by positivity)]
    congr 1
    unfold aExp; ring
  rw [e]
  ring

/-- Stratospheric branch of `h_isa` in closed form. -/
theorem hIsa_strat {p : ℝ} (dT : ℝ) (hp : p ≤ 22630) :
    hIsa np p dT = 11000 - 287.05287 * (216.65 + dT) / 9.80665 * Real.log (p / 22630) := by
  simp only [hIsa]
  simp only [np, T0, beta, R, g0, p0]
  rw [if_neg (by norm_num; exact hp)]
  norm_num
  ring

theorem shift_zero : shift 0 = 0 := by simp [shift]; norm_num

/-- Sea-level pressure of the standard day in the model. -/
noncomputable def K : ℝ := 1.225 * 287.05287 * 288.15

theorem pressure_trop {h : ℝ} (hh : h ≤ 11000) :
    pressure np h 0 = K * ((288.15 - 0.0065 * h) / 288.15) ^ (5.256848030018761 : ℝ) := by
  have hx : 0 < (288.15 - 0.0065 * h) / 288.15 := by
    apply div_pos _ (by norm_num); linarith
  rw [pressure_eq, density_eq, temperature_eq, max_eq_left (by linarith)]
  simp only [isaTemp, if_pos hh, shift_zero, add_zero]
  have e : ((288.15 - 0.0065 * h) / 288.15) ^ (5.256848030018761 : ℝ) =
      ((288.15 - 0.0065 * h) / 288.15) ^ (4.256848030018761 : ℝ) *
        ((288.15 - 0.0065 * h) / 288.15) := by
    nth_rewrite 3 [← Real.rpow_one ((288.15 - 0.0065 * h) / 288.15)]
    rw [← Real.rpow_add hx]
    congr 1
    norm_num
  rw [e, neg_zero, zero_div, Real.exp_zero]
  unfold K
  ring

theorem pressure_strat {h : ℝ} (hh : 11000 ≤ h) :
    pressure np h 0 = pressure np 11000 0 * Real.exp (-(h - 11000) / 6341.552161) := by
  rw [pressure_eq, density_eq, temperature_eq, pressure_eq, density_eq, temperature_eq,
    max_eq_right (by linarith), max_eq_left (by norm_num)]
  have e1 : isaTemp h 0 = 216.65 := by
    simp only [isaTemp, shift_zero]; split_ifs <;> linarith
  have e2 : isaTemp 11000 0 = 216.65 := by
    simp only [isaTemp, shift_zero]; split_ifs <;> linarith
  rw [e1, e2, neg_zero, zero_div, Real.exp_zero]
  ring

set_option exponentiation.threshold 2000 in
/-- The model's tropopause pressure, bracketed by rational powers. -/
theorem p11_bounds : 22625.7 ≤ pressure np 11000 0 ∧ pressure np 11000 0 ≤ 22626.5 := by
  rw [pressure_trop le_rfl]
  have e : ((288.15 - 0.0065 * 11000) / 288.15 : ℝ) = 4333 / 5763 := by norm_num
  rw [e]
  have h1 : (22625.7 / 101324.9985 : ℝ) ≤ (4333 / 5763 : ℝ) ^ (5.256848030018761 : ℝ) := by
    apply le_rpow_of_le_one 1535 292 (by norm_num) (by norm_num) (by norm_num) (by norm_num)
      (by norm_num)
    norm_num
  have h2 : (4333 / 5763 : ℝ) ^ (5.256848030018761 : ℝ) ≤ (22626.5 / 101325 : ℝ) := by
    apply rpow_le_of_le_one 389 74 (by norm_num) (by norm_num) (by norm_num) (by norm_num)
      (by norm_num)
    norm_num
  have hK1 : (101324.9985 : ℝ) ≤ K := by unfold K; norm_num
  have hK2 : K ≤ 101325 := by unfold K; norm_num
  have hpos : 0 ≤ (4333 / 5763 : ℝ) ^ (5.256848030018761 : ℝ) := Real.rpow_nonneg (by norm_num) _
  generalize (4333 / 5763 : ℝ) ^ (5.256848030018761 : ℝ) = A at *
  constructor
  · rw [div_le_iff₀ (by norm_num)] at h1; nlinarith
  · rw [le_div_iff₀ (by norm_num)] at h2; nlinarith

end Verif.Aero
