import Verif.Model.Aero
import Verif.Spec.Atmosphere
import Mathlib.Analysis.SpecialFunctions.Pow.Deriv
import Mathlib.Analysis.SpecialFunctions.ExpDeriv

namespace Verif.Aero
open Verif.Spec

theorem clip_shift (dT : ℝ) : np.clip dT (-25.0) 15.0 = shift dT := by
  simp only [np, clipR, shift]
  split_ifs with h1 h2
  · rw [max_eq_right (by linarith)]; norm_num
  · rw [max_eq_left (by linarith)]; norm_num; linarith
  · rw [max_eq_left (by linarith)]; norm_num; linarith

theorem shift_bounds (dT : ℝ) : -25 ≤ shift dT ∧ shift dT ≤ 15 := by
  unfold shift; split_ifs <;> constructor <;> linarith

theorem temperature_eq (h dT : ℝ) : temperature np h dT = isaTemp h dT := by
  simp only [temperature, atmos, clip_shift, isaTemp]
  simp only [np, T0, beta]
  split_ifs with hh
  · rw [max_eq_left (by linarith)]; ring
  · rw [max_eq_right (by linarith)]

theorem temp_lower (h dT : ℝ) : 216.65 + shift dT ≤ isaTemp h dT := by
  unfold isaTemp; split_ifs with hh
  · linarith
  · exact le_rfl

theorem temp_pos (h dT : ℝ) : 0 < isaTemp h dT := by
  have := temp_lower h dT
  have := (shift_bounds dT).1
  linarith

theorem T0s_pos (dT : ℝ) : 0 < 288.15 + shift dT := by
  have := (shift_bounds dT).1
  linarith

/-- Closed form of the model's density over the reals. -/
theorem density_eq (h dT : ℝ) : density np h dT =
    1.225 * (isaTemp h dT / (288.15 + shift dT)) ^ (4.256848030018761 : ℝ) *
      Real.exp (-(max 0 (h - 11000)) / 6341.552161) := by
  have hT := temperature_eq h dT
  simp only [temperature, density, atmos] at hT ⊢
  rw [hT, clip_shift]
  simp only [np, T0, rho0]
  norm_num

theorem pressure_eq (h dT : ℝ) : pressure np h dT =
    density np h dT * 287.05287 * temperature np h dT := by
  simp only [pressure, density, temperature, atmos, R]

theorem density_pos (h dT : ℝ) : 0 < density np h dT := by
  rw [density_eq]
  have := div_pos (temp_pos h dT) (T0s_pos dT)
  positivity

theorem pressure_pos (h dT : ℝ) : 0 < pressure np h dT := by
  rw [pressure_eq, temperature_eq]
  have := density_pos h dT
  have := temp_pos h dT
  positivity

theorem vsound_eq (h dT : ℝ) : vsound np h dT = Real.sqrt (401.874018 * isaTemp h dT) := by
  simp only [vsound, temperature_eq]
  simp only [np, gamma, R]
  norm_num

theorem vsound_pos (h dT : ℝ) : 0 < vsound np h dT := by
  rw [vsound_eq]
  have := temp_pos h dT
  positivity

theorem temp_anti (dT : ℝ) : Antitone (fun h => isaTemp h dT) := by
  intro a c hac
  simp only [isaTemp]
  split_ifs <;> linarith

theorem density_strictAnti (dT : ℝ) : StrictAnti (fun h => density np h dT) := by
  intro a c hac
  simp only [density_eq]
  have hTa := temp_pos a dT
  have hTc := temp_pos c dT
  have h0 := T0s_pos dT
  have hT := temp_anti dT hac.le
  simp only at hT
  have hr : (isaTemp c dT / (288.15 + shift dT)) ^ (4.256848030018761 : ℝ) ≤
      (isaTemp a dT / (288.15 + shift dT)) ^ (4.256848030018761 : ℝ) := by
    apply Real.rpow_le_rpow (by positivity) (by gcongr) (by norm_num)
  have he : Real.exp (-(max 0 (c - 11000)) / 6341.552161) ≤
      Real.exp (-(max 0 (a - 11000)) / 6341.552161) := by
    apply Real.exp_le_exp.2
    apply div_le_div_of_nonneg_right _ (by norm_num)
    exact neg_le_neg (max_le_max le_rfl (by linarith))
  by_cases ha : a < 11000
  · have hTs : isaTemp c dT < isaTemp a dT := by
      simp only [isaTemp, if_pos ha.le]
      split_ifs <;> linarith
    have hr' : (isaTemp c dT / (288.15 + shift dT)) ^ (4.256848030018761 : ℝ) <
        (isaTemp a dT / (288.15 + shift dT)) ^ (4.256848030018761 : ℝ) := by
      apply Real.rpow_lt_rpow (by positivity) (by gcongr) (by norm_num)
    have : 0 < Real.exp (-(max 0 (c - 11000)) / 6341.552161) := Real.exp_pos _
    have hp : 0 < (isaTemp a dT / (288.15 + shift dT)) ^ (4.256848030018761 : ℝ) := by positivity
    calc _ < 1.225 * (isaTemp a dT / (288.15 + shift dT)) ^ (4.256848030018761 : ℝ) *
          Real.exp (-(max 0 (c - 11000)) / 6341.552161) := by gcongr
      _ ≤ _ := by gcongr
  · have he' : Real.exp (-(max 0 (c - 11000)) / 6341.552161) <
        Real.exp (-(max 0 (a - 11000)) / 6341.552161) := by
      apply Real.exp_lt_exp.2
      apply div_lt_div_of_pos_right _ (by norm_num)
      rw [max_eq_right (by linarith), max_eq_right (by linarith)]; linarith
    have hp : 0 < (isaTemp c dT / (288.15 + shift dT)) ^ (4.256848030018761 : ℝ) := by positivity
    calc _ < 1.225 * (isaTemp c dT / (288.15 + shift dT)) ^ (4.256848030018761 : ℝ) *
          Real.exp (-(max 0 (a - 11000)) / 6341.552161) := by gcongr
      _ ≤ _ := by gcongr

theorem pressure_strictAnti (dT : ℝ) : StrictAnti (fun h => pressure np h dT) := by
  intro a c hac
  simp only [pressure_eq, temperature_eq]
  have h1 := density_strictAnti dT hac
  have h2 := temp_anti dT hac.le
  simp only at h1 h2
  have := density_pos c dT
  have := density_pos a dT
  have := temp_pos c dT
  have := temp_pos a dT
  calc _ < density np a dT * 287.05287 * isaTemp c dT := by gcongr
    _ ≤ _ := by gcongr

end Verif.Aero
