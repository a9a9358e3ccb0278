import Verif.Lemmas.Airspeed

namespace Verif.Aero
open Verif.Spec Verif.Comp

/-- On a standard day sea-level pressure of the model is a hair below 101325 Pa. -/
theorem pressure_le_p0 {h : ℝ} (hh : 0 ≤ h) : pressure np h 0 ≤ 101324.9985008625 + 1e-8 := by
  have h1 := (pressure_strictAnti 0).antitone hh
  refine le_trans h1 ?_
  have h00 : shift 0 = 0 := by simp [shift]; norm_num
  rw [pressure_eq, temperature_eq, density_eq, max_eq_left (by norm_num)]
  have : isaTemp 0 0 = 288.15 := by simp [isaTemp, h00]
  rw [this, h00, add_zero, div_self (by norm_num), Real.one_rpow, neg_zero, zero_div, Real.exp_zero]
  norm_num

/-- `EAS ≤ CAS` wherever the static pressure does not exceed 101325 Pa. -/
theorem eas_le_cas {v h dT : ℝ} (hv : 0 ≤ v) (hp0 : pressure np h dT ≤ 101325) :
    tas2eas np v h dT ≤ tas2cas np v h dT := by
  have hr := density_pos h dT
  have hp := pressure_pos h dT
  obtain ⟨n1, e1⟩ := tas2cas_spec v h dT
  have n0 : 0 ≤ tas2eas np v h dT := by
    change 0 ≤ v * Real.sqrt _; positivity
  rw [← impact_le_iff (p := 101325) (rho := 1.225) (by norm_num) (by norm_num) n0 n1, e1]
  have hsq : (tas2eas np v h dT) ^ 2 = v ^ 2 * (density np h dT / 1.225) := by
    simp only [tas2eas, rho0]
    change (v * Real.sqrt (density np h dT / 1.225)) ^ 2 = _
    rw [mul_pow, Real.sq_sqrt (by positivity)]
  have := impact_anti (c := density np h dT * v ^ 2 / 7) (by positivity) hp hp0
  rw [impact_eq, impact_eq, hsq]
  have e2 : 1.225 * (v ^ 2 * (density np h dT / 1.225)) / (7 * 101325) =
      density np h dT * v ^ 2 / 7 / 101325 := by ring
  have e3 : density np h dT * v ^ 2 / (7 * pressure np h dT) =
      density np h dT * v ^ 2 / 7 / pressure np h dT := by
    rw [div_div]
  rw [e2, e3]
  exact this

/-- Impact pressure in terms of temperature: in the model's troposphere and stratosphere the
impact pressure of a given true airspeed is at most `(T/T₀)^(1.7568…)` times the one at sea
level of the same (standard) day. -/
theorem impact_le_sea_level {h : ℝ} (hh : 0 ≤ h) (v : ℝ) :
    impactPressure (pressure np h 0) (density np h 0) v ≤
      (isaTemp h 0 / 288.15) ^ (1.756848030018761 : ℝ) *
        impactPressure (pressure np 0 0) (density np 0 0) v := by
  have h00 : shift 0 = 0 := by simp [shift]; norm_num
  have ht := temp_pos h 0
  have hT0 : isaTemp 0 0 = 288.15 := by simp [isaTemp, h00]
  have hle : isaTemp h 0 ≤ 288.15 := by rw [← hT0]; exact temp_anti 0 hh
  set T := isaTemp h 0 with hT
  have hx : 0 < T / 288.15 := by positivity
  -- densities
  have d0 : density np 0 0 = 1.225 := by
    rw [density_eq, hT0, h00, add_zero, div_self (by norm_num), Real.one_rpow,
      max_eq_left (by norm_num), neg_zero, zero_div, Real.exp_zero]; norm_num
  have dh : density np h 0 ≤ 1.225 * (T / 288.15) ^ (4.256848030018761 : ℝ) := by
    rw [density_eq, h00, add_zero, ← hT]
    have : Real.exp (-(max 0 (h - 11000)) / 6341.552161) ≤ 1 := by
      apply Real.exp_le_one_iff.2
      apply div_nonpos_of_nonpos_of_nonneg _ (by norm_num)
      simp
    have hpos : 0 ≤ 1.225 * (T / 288.15) ^ (4.256848030018761 : ℝ) := by positivity
    nlinarith
  have a1 : ∀ x, impactPressure (pressure np x 0) (density np x 0) v =
      density np x 0 * 287.05287 * isaTemp x 0 * F (v ^ 2 / (7 * 287.05287) / isaTemp x 0) := by
    intro x
    have := density_pos x 0
    have := temp_pos x 0
    rw [impact_eq, pressure_eq, temperature_eq]
    congr 2
    field_simp
  rw [a1, a1, hT0, d0, ← hT]
  set w := v ^ 2 / (7 * 287.05287) with hw
  have hw0 : 0 ≤ w := by positivity
  have hs := F_scale_le (l := 288.15 / T) (u := w / 288.15) (by rw [le_div_iff₀ ht]; linarith)
    (by positivity)
  have e : 288.15 / T * (w / 288.15) = w / T := by field_simp
  rw [e] at hs
  have hF0 : 0 ≤ F (w / 288.15) := F_nonneg (by positivity)
  have hF1 : 0 ≤ F (w / T) := F_nonneg (by positivity)
  have hpow : (T / 288.15) ^ (4.256848030018761 : ℝ) * (T / 288.15) * (288.15 / T) ^ (3.5 : ℝ) =
      (T / 288.15) ^ (1.756848030018761 : ℝ) := by
    have : (288.15 / T) = (T / 288.15)⁻¹ := by rw [inv_div]
    rw [this, Real.inv_rpow hx.le, ← Real.rpow_neg hx.le]
    nth_rewrite 2 [← Real.rpow_one (T / 288.15)]
    rw [← Real.rpow_add hx, ← Real.rpow_add hx]
    congr 1
    norm_num
  calc density np h 0 * 287.05287 * T * F (w / T)
      ≤ 1.225 * (T / 288.15) ^ (4.256848030018761 : ℝ) * 287.05287 * T *
          ((288.15 / T) ^ (3.5 : ℝ) * F (w / 288.15)) := by gcongr
    _ = ((T / 288.15) ^ (4.256848030018761 : ℝ) * (T / 288.15) * (288.15 / T) ^ (3.5 : ℝ)) *
          (1.225 * 287.05287 * 288.15 * F (w / 288.15)) := by ring
    _ = _ := by rw [hpow]

/-- The impact pressure of a given true airspeed falls strictly with altitude. -/
theorem impact_strictAnti (dT : ℝ) {v : ℝ} (hv : 0 < v) :
    StrictAnti (fun h => impactPressure (pressure np h dT) (density np h dT) v) := by
  intro a c hac
  have ta := temp_pos a dT
  have tc := temp_pos c dT
  have t0 := T0s_pos dT
  have hle : isaTemp c dT ≤ isaTemp a dT := temp_anti dT hac.le
  have a1 : ∀ x, impactPressure (pressure np x dT) (density np x dT) v =
      density np x dT * 287.05287 * isaTemp x dT *
        F (v ^ 2 / (7 * 287.05287) / isaTemp x dT) := by
    intro x
    have := density_pos x dT
    have := temp_pos x dT
    rw [impact_eq, pressure_eq, temperature_eq]
    congr 2
    field_simp
  simp only [a1]
  simp only [density_eq]
  set w := v ^ 2 / (7 * 287.05287) with hw
  have hw0 : 0 < w := by positivity
  set Ta := isaTemp a dT with hTa
  set Tc := isaTemp c dT with hTc
  set T0 := 288.15 + shift dT with hT0
  have hs := F_scale_le (l := Ta / Tc) (u := w / Ta) (by rw [le_div_iff₀ tc]; linarith)
    (by positivity)
  rw [show Ta / Tc * (w / Ta) = w / Tc by field_simp] at hs
  have hFa : 0 < F (w / Ta) := F_pos (by positivity)
  have hx : 0 < Tc / Ta := by positivity
  have hpow : (Tc / T0) ^ (4.256848030018761 : ℝ) * Tc * (Ta / Tc) ^ (3.5 : ℝ) =
      (Tc / Ta) ^ (1.756848030018761 : ℝ) * ((Ta / T0) ^ (4.256848030018761 : ℝ) * Ta) := by
    have e0 : Tc / T0 = Tc / Ta * (Ta / T0) := by field_simp
    have e1 : Ta / Tc = (Tc / Ta)⁻¹ := by rw [inv_div]
    have e2 : Tc = Tc / Ta * Ta := by field_simp
    have e3 : (Tc / Ta) ^ (4.256848030018761 : ℝ) * (Tc / Ta) * (Tc / Ta) ^ (-3.5 : ℝ) =
        (Tc / Ta) ^ (1.756848030018761 : ℝ) := by
      nth_rewrite 2 [← Real.rpow_one (Tc / Ta)]
      rw [← Real.rpow_add hx, ← Real.rpow_add hx]
      congr 1
      norm_num
    rw [e0, Real.mul_rpow hx.le (by positivity), e1, Real.inv_rpow hx.le, ← Real.rpow_neg hx.le,
      ← e3]
    nth_rewrite 2 [e2]
    ring
  have hr1 : (Tc / Ta) ^ (1.756848030018761 : ℝ) ≤ 1 :=
    Real.rpow_le_one hx.le (by rw [div_le_one ta]; exact hle) (by norm_num)
  have he : Real.exp (-(max 0 (c - 11000)) / 6341.552161) ≤
      Real.exp (-(max 0 (a - 11000)) / 6341.552161) := by
    apply Real.exp_le_exp.2
    apply div_le_div_of_nonneg_right _ (by norm_num)
    exact neg_le_neg (max_le_max le_rfl (by linarith))
  have hprod : (Tc / Ta) ^ (1.756848030018761 : ℝ) *
      Real.exp (-(max 0 (c - 11000)) / 6341.552161) <
        Real.exp (-(max 0 (a - 11000)) / 6341.552161) := by
    have hec := Real.exp_pos (-(max 0 (c - 11000)) / 6341.552161)
    by_cases ha : a < 11000
    · have hTs : Tc < Ta := by
        rw [hTa, hTc]
        simp only [isaTemp, if_pos ha.le]
        split_ifs <;> linarith
      have : (Tc / Ta) ^ (1.756848030018761 : ℝ) < 1 :=
        Real.rpow_lt_one hx.le (by rw [div_lt_one ta]; exact hTs) (by norm_num)
      nlinarith
    · have he' : Real.exp (-(max 0 (c - 11000)) / 6341.552161) <
          Real.exp (-(max 0 (a - 11000)) / 6341.552161) := by
        apply Real.exp_lt_exp.2
        apply div_lt_div_of_pos_right _ (by norm_num)
        rw [max_eq_right (by linarith), max_eq_right (by linarith)]; linarith
      nlinarith
  set Ec := Real.exp (-(max 0 (c - 11000)) / 6341.552161)
  set Ea := Real.exp (-(max 0 (a - 11000)) / 6341.552161)
  have hEc : 0 < Ec := Real.exp_pos _
  have hq : 0 < (Ta / T0) ^ (4.256848030018761 : ℝ) := by positivity
  calc 1.225 * (Tc / T0) ^ (4.256848030018761 : ℝ) * Ec * 287.05287 * Tc * F (w / Tc)
      ≤ 1.225 * (Tc / T0) ^ (4.256848030018761 : ℝ) * Ec * 287.05287 * Tc *
          ((Ta / Tc) ^ (3.5 : ℝ) * F (w / Ta)) := by gcongr
    _ = ((Tc / T0) ^ (4.256848030018761 : ℝ) * Tc * (Ta / Tc) ^ (3.5 : ℝ)) *
          (1.225 * Ec * 287.05287 * F (w / Ta)) := by ring
    _ = (Tc / Ta) ^ (1.756848030018761 : ℝ) * Ec *
          (1.225 * (Ta / T0) ^ (4.256848030018761 : ℝ) * 287.05287 * Ta * F (w / Ta)) := by
        rw [hpow]; ring
    _ < Ea * (1.225 * (Ta / T0) ^ (4.256848030018761 : ℝ) * 287.05287 * Ta * F (w / Ta)) := by
        gcongr
    _ = _ := by ring

end Verif.Aero
