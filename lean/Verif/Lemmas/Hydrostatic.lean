import Verif.Lemmas.Aero

namespace Verif.Aero
open Verif.Spec

/-- The gravity that the tropospheric formula implies: `R · 0.0065 · (1 + 4.2568...)`. -/
theorem hydrostatic_trop (h dT : ℝ) (hh : h < 11000) :
    HydrostaticAt (fun h => pressure np h dT) (fun h => density np h dT)
      (287.05287 * 0.0065 * 5.256848030018761) h := by
  unfold HydrostaticAt
  have h0 := T0s_pos dT
  have ht := temp_pos h dT
  have hform : ∀ x, x < 11000 → pressure np x dT =
      1.225 * ((288.15 + shift dT - 0.0065 * x) / (288.15 + shift dT)) ^ (4.256848030018761 : ℝ)
        * 287.05287 * (288.15 + shift dT - 0.0065 * x) := by
    intro x hx
    rw [pressure_eq, density_eq, temperature_eq, max_eq_left (by linarith)]
    simp only [isaTemp, if_pos hx.le]
    norm_num
  have hT : isaTemp h dT = 288.15 + shift dT - 0.0065 * h := by simp [isaTemp, hh.le]
  have hlin : HasDerivAt (fun x : ℝ => 288.15 + shift dT - 0.0065 * x) (-0.0065) h := by
    simpa using ((hasDerivAt_id h).const_mul (0.0065 : ℝ)).const_sub (288.15 + shift dT)
  rw [hT] at ht
  have hq := hlin.div_const (288.15 + shift dT)
  have hpow := hq.rpow_const (p := 4.256848030018761) (Or.inl (div_pos ht h0).ne')
  have hfull := ((hpow.const_mul (1.225 : ℝ)).mul_const (287.05287 : ℝ)).mul hlin
  have hev : (fun h => pressure np h dT) =ᶠ[nhds h] fun x =>
      1.225 * ((288.15 + shift dT - 0.0065 * x) / (288.15 + shift dT)) ^ (4.256848030018761 : ℝ)
        * 287.05287 * (288.15 + shift dT - 0.0065 * x) := by
    filter_upwards [Iio_mem_nhds hh] with x hx using hform x hx
  refine (hfull.congr_of_eventuallyEq hev).congr_deriv ?_
  beta_reduce
  rw [density_eq, max_eq_left (by linarith), hT]
  have hsub : ((288.15 + shift dT - 0.0065 * h) / (288.15 + shift dT)) ^
      ((4.256848030018761 : ℝ) - 1) =
      ((288.15 + shift dT - 0.0065 * h) / (288.15 + shift dT)) ^ (4.256848030018761 : ℝ) /
      ((288.15 + shift dT - 0.0065 * h) / (288.15 + shift dT)) := by
    rw [Real.rpow_sub_one (div_pos ht h0).ne']
  rw [hsub]
  generalize ((288.15 + shift dT - 0.0065 * h) / (288.15 + shift dT)) ^
    (4.256848030018761 : ℝ) = A
  have e0 : Real.exp (-0 / 6341.552161) = 1 := by simp
  rw [e0]
  have hne := ht.ne'
  field_simp
  ring

/-- In the stratosphere the implied gravity is `R (216.65 + shift) / 6341.552161`. -/
theorem hydrostatic_strat (h dT : ℝ) (hh : 11000 < h) :
    HydrostaticAt (fun h => pressure np h dT) (fun h => density np h dT)
      (287.05287 * (216.65 + shift dT) / 6341.552161) h := by
  unfold HydrostaticAt
  have hform : ∀ x, 11000 < x → pressure np x dT =
      1.225 * ((216.65 + shift dT) / (288.15 + shift dT)) ^ (4.256848030018761 : ℝ)
        * Real.exp (-(x - 11000) / 6341.552161) * 287.05287 * (216.65 + shift dT) := by
    intro x hx
    rw [pressure_eq, density_eq, temperature_eq, max_eq_right (by linarith)]
    simp only [isaTemp, if_neg (not_le.2 hx)]
  have hlin : HasDerivAt (fun x : ℝ => -(x - 11000) / 6341.552161) (-1 / 6341.552161) h := by
    exact (((hasDerivAt_id h).sub_const (11000 : ℝ)).neg).div_const _
  have hfull := (((hlin.exp).const_mul (1.225 * ((216.65 + shift dT) / (288.15 + shift dT)) ^
    (4.256848030018761 : ℝ))).mul_const (287.05287 : ℝ)).mul_const (216.65 + shift dT)
  have hev : (fun h => pressure np h dT) =ᶠ[nhds h] fun x =>
      1.225 * ((216.65 + shift dT) / (288.15 + shift dT)) ^ (4.256848030018761 : ℝ)
        * Real.exp (-(x - 11000) / 6341.552161) * 287.05287 * (216.65 + shift dT) := by
    filter_upwards [Ioi_mem_nhds hh] with x hx using hform x hx
  refine (hfull.congr_of_eventuallyEq hev).congr_deriv ?_
  beta_reduce
  rw [density_eq, max_eq_right (by linarith)]
  simp only [isaTemp, if_neg (not_le.2 hh)]
  ring

end Verif.Aero
