import Verif.Lemmas.AirspeedOrder

/-!
# C07-C10: airspeed conversions
-/

namespace Verif.Props
open Verif.Aero Verif.Spec Verif.Comp

/-- **C07.** All eight conversions are mutually inverse; on signed speeds the CAS
conversions return the absolute value. -/
theorem C07_round_trips (v h dT : ℝ) :
    mach2tas np (tas2mach np v h dT) h dT = v ∧
    tas2mach np (mach2tas np v h dT) h dT = v ∧
    eas2tas np (tas2eas np v h dT) h dT = v ∧
    tas2eas np (eas2tas np v h dT) h dT = v ∧
    tas2cas np (cas2tas np v h dT) h dT = |v| ∧
    cas2tas np (tas2cas np v h dT) h dT = |v| ∧
    mach2cas np (cas2mach np v h dT) h dT = |v| ∧
    cas2mach np (mach2cas np v h dT) h dT = |v| := by
  have ha := (vsound_pos h dT)
  have hr := density_pos h dT
  have hp := pressure_pos h dT
  have h1 : tas2cas np (cas2tas np v h dT) h dT = |v| := by
    obtain ⟨n1, e1⟩ := cas2tas_spec v h dT
    obtain ⟨n2, e2⟩ := tas2cas_spec (cas2tas np v h dT) h dT
    refine impact_inj (p := 101325) (rho := 1.225) (by norm_num) (by norm_num) n2 (abs_nonneg v) ?_
    rw [e2, e1, impact_abs]
  have h2 : ∀ w, cas2tas np (tas2cas np w h dT) h dT = |w| := by
    intro w
    obtain ⟨n1, e1⟩ := tas2cas_spec w h dT
    obtain ⟨n2, e2⟩ := cas2tas_spec (tas2cas np w h dT) h dT
    refine impact_inj hp hr n2 (abs_nonneg w) ?_
    rw [e2, e1, impact_abs]
  have hs : Real.sqrt (density np h dT / 1.225) * Real.sqrt (1.225 / density np h dT) = 1 := by
    rw [← Real.sqrt_mul (by positivity)]
    have : density np h dT / 1.225 * (1.225 / density np h dT) = 1 := by field_simp
    rw [this, Real.sqrt_one]
  refine ⟨?_, ?_, ?_, ?_, h1, h2 v, ?_, ?_⟩
  · simp only [mach2tas, tas2mach]; field_simp
  · simp only [mach2tas, tas2mach]; field_simp
  · simp only [eas2tas, tas2eas, rho0]
    change v * Real.sqrt (density np h dT / 1.225) * Real.sqrt (1.225 / density np h dT) = v
    rw [mul_assoc, hs, mul_one]
  · simp only [eas2tas, tas2eas, rho0]
    change v * Real.sqrt (1.225 / density np h dT) * Real.sqrt (density np h dT / 1.225) = v
    rw [mul_assoc, mul_comm (Real.sqrt _), hs, mul_one]
  · simp only [mach2cas, cas2mach, mach2tas, tas2mach]
    rw [div_mul_cancel₀ _ ha.ne', h1]
  · simp only [mach2cas, cas2mach, mach2tas, tas2mach]
    rw [h2, abs_mul, abs_of_pos ha, mul_div_cancel_right₀ _ ha.ne']

/-- **C07 (meaning).** `tas2cas` is *the* calibrated airspeed: the unique non-negative
sea-level speed with the same impact pressure. -/
theorem C07_cas_is_calibrated (tas cas h dT : ℝ) :
    IsCas (pressure np h dT) (density np h dT) tas cas ↔ cas = tas2cas np tas h dT := by
  obtain ⟨n1, e1⟩ := tas2cas_spec tas h dT
  constructor
  · rintro ⟨hc, he⟩
    exact impact_inj (p := 101325) (rho := 1.225) (by norm_num) (by norm_num) hc n1 (by rw [he, e1])
  · rintro rfl; exact ⟨n1, e1⟩

/-- **C08.** Each conversion fixes zero and is strictly increasing on non-negative speeds. -/
theorem C08_increasing (h dT : ℝ) :
    (tas2mach np 0 h dT = 0 ∧ mach2tas np 0 h dT = 0 ∧ tas2eas np 0 h dT = 0 ∧
      eas2tas np 0 h dT = 0 ∧ tas2cas np 0 h dT = 0 ∧ cas2tas np 0 h dT = 0 ∧
      mach2cas np 0 h dT = 0 ∧ cas2mach np 0 h dT = 0) ∧
    (∀ f ∈ [tas2mach np, mach2tas np, tas2eas np, eas2tas np, tas2cas np, cas2tas np,
        mach2cas np, cas2mach np],
      ∀ v w, 0 ≤ v → v < w → f v h dT < f w h dT) := by
  have ha := (vsound_pos h dT)
  have hr := density_pos h dT
  have hp := pressure_pos h dT
  have mt : ∀ v w, 0 ≤ v → v < w → tas2cas np v h dT < tas2cas np w h dT := by
    intro v w hv hvw
    obtain ⟨n1, e1⟩ := tas2cas_spec v h dT
    obtain ⟨n2, e2⟩ := tas2cas_spec w h dT
    rw [← impact_lt_iff (p := 101325) (rho := 1.225) (by norm_num) (by norm_num) n1 n2, e1, e2]
    exact impact_strictMono hp hr hv hvw
  have mc : ∀ v w, 0 ≤ v → v < w → cas2tas np v h dT < cas2tas np w h dT := by
    intro v w hv hvw
    obtain ⟨n1, e1⟩ := cas2tas_spec v h dT
    obtain ⟨n2, e2⟩ := cas2tas_spec w h dT
    rw [← impact_lt_iff hp hr n1 n2, e1, e2]
    exact impact_strictMono (by norm_num) (by norm_num) hv hvw
  have z1 : tas2cas np 0 h dT = 0 := by
    obtain ⟨n1, e1⟩ := tas2cas_spec 0 h dT
    rw [impact_zero] at e1
    exact impact_inj (p := 101325) (rho := 1.225) (by norm_num) (by norm_num) n1 le_rfl
      (by rw [e1, impact_zero])
  have z2 : cas2tas np 0 h dT = 0 := by
    obtain ⟨n1, e1⟩ := cas2tas_spec 0 h dT
    rw [impact_zero] at e1
    exact impact_inj hp hr n1 le_rfl (by rw [e1, impact_zero])
  constructor
  · refine ⟨by simp [tas2mach], by simp [mach2tas], by simp [tas2eas], by simp [eas2tas], z1, z2,
      ?_, ?_⟩
    · simp [mach2cas, mach2tas, z1]
    · simp [cas2mach, tas2mach, z2]
  · intro f hf v w hv hvw
    simp only [List.mem_cons, List.not_mem_nil, or_false] at hf
    rcases hf with rfl | rfl | rfl | rfl | rfl | rfl | rfl | rfl
    · simp only [tas2mach]; gcongr
    · simp only [mach2tas]; gcongr
    · simp only [tas2eas, rho0]
      change v * Real.sqrt (density np h dT / 1.225) < w * Real.sqrt (density np h dT / 1.225)
      gcongr
    · simp only [eas2tas, rho0]
      change v * Real.sqrt (1.225 / density np h dT) < w * Real.sqrt (1.225 / density np h dT)
      gcongr
    · exact mt v w hv hvw
    · exact mc v w hv hvw
    · simp only [mach2cas, mach2tas]
      exact mt _ _ (by positivity) (by gcongr)
    · simp only [cas2mach, tas2mach]
      have := mc v w hv hvw
      gcongr

/-- **C10.** A constant-CAS climb gains true airspeed and Mach; a constant-Mach climb loses
CAS. -/
theorem C10_climb_at_constant_speed (dT : ℝ) :
    (∀ v, 0 < v → StrictMono (fun h => cas2tas np v h dT)) ∧
    (∀ v, 0 < v → StrictMono (fun h => cas2mach np v h dT)) ∧
    (∀ m, 0 < m → StrictAnti (fun h => mach2cas np m h dT)) := by
  refine ⟨?_, ?_, ?_⟩
  · intro v hv a c hac
    simp only
    obtain ⟨na, ea⟩ := cas2tas_spec v a dT
    obtain ⟨nc, ec⟩ := cas2tas_spec v c dT
    have hq : 0 < impactPressure 101325 1.225 v := by
      have := impact_strictMono (p := 101325) (rho := 1.225) (by norm_num) (by norm_num) le_rfl hv
      rwa [impact_zero] at this
    have hva : 0 < cas2tas np v a dT := by
      rcases na.eq_or_lt with h0 | h0
      · rw [← h0, impact_zero] at ea; linarith
      · exact h0
    have h1 := impact_strictAnti dT hva hac
    simp only at h1
    rw [ea, ← ec] at h1
    exact (impact_lt_iff (pressure_pos c dT) (density_pos c dT) na nc).1 h1
  · intro v hv a c hac
    have hpp := pressure_strictAnti dT hac
    simp only at hpp ⊢
    have key : ∀ h, 0 ≤ cas2mach np v h dT ∧
        pressure np h dT * F (0.2 * (cas2mach np v h dT) ^ 2) = impactPressure 101325 1.225 v := by
      intro h
      obtain ⟨n1, e1⟩ := cas2tas_spec v h dT
      have ha := vsound_pos h dT
      refine ⟨by simp only [cas2mach, tas2mach]; positivity, ?_⟩
      rw [← impact_mach]
      simp only [cas2mach, tas2mach]
      rw [div_mul_cancel₀ _ ha.ne', e1]
    obtain ⟨na, ea⟩ := key a
    obtain ⟨nc, ec⟩ := key c
    have hq : 0 < impactPressure 101325 1.225 v := by
      have := impact_strictMono (p := 101325) (rho := 1.225) (by norm_num) (by norm_num) le_rfl hv
      rwa [impact_zero] at this
    by_contra hle
    rw [not_lt] at hle
    have hF : F (0.2 * (cas2mach np v c dT) ^ 2) ≤ F (0.2 * (cas2mach np v a dT) ^ 2) :=
      F_mono (by positivity) (by gcongr)
    have hpc := pressure_pos c dT
    have hFa : 0 < F (0.2 * (cas2mach np v a dT) ^ 2) := by
      have hpa := pressure_pos a dT
      by_contra hcon
      rw [not_lt] at hcon
      nlinarith
    nlinarith
  · intro m hm a c hac
    have hpp := pressure_strictAnti dT hac
    simp only at hpp ⊢
    have key : ∀ h, 0 ≤ mach2cas np m h dT ∧
        impactPressure 101325 1.225 (mach2cas np m h dT) = pressure np h dT * F (0.2 * m ^ 2) := by
      intro h
      obtain ⟨n1, e1⟩ := tas2cas_spec (m * vsound np h dT) h dT
      rw [impact_mach] at e1
      exact ⟨n1, e1⟩
    obtain ⟨na, ea⟩ := key a
    obtain ⟨nc, ec⟩ := key c
    rw [← impact_lt_iff (p := 101325) (rho := 1.225) (by norm_num) (by norm_num) nc na, ea, ec]
    have hF : 0 < F (0.2 * m ^ 2) := F_pos (by positivity)
    gcongr

/-- **C09.** On a standard day at or above sea level, `EAS ≤ CAS ≤ TAS`, the second
inequality exactly from one centimetre up and to within one part in 10⁸ at sea level
(the sea-level constants are rounded). -/
theorem C09_eas_le_cas_le_tas (v h : ℝ) (hv : 0 ≤ v) (hh : 0 ≤ h) :
    tas2eas np v h 0 ≤ tas2cas np v h 0 ∧
    tas2cas np v h 0 ≤ (1 + 1e-8) * v ∧
    (0.01 ≤ h → tas2cas np v h 0 ≤ v) := by
  have hp0 := pressure_le_p0 hh
  have h00 : shift 0 = 0 := by simp [shift]; norm_num
  have hT0 : isaTemp 0 0 = 288.15 := by simp [isaTemp, h00]
  have d0 : density np 0 0 = 1.225 := by
    rw [density_eq, hT0, h00, add_zero, div_self (by norm_num), Real.one_rpow,
      max_eq_left (by norm_num), neg_zero, zero_div, Real.exp_zero]; norm_num
  have pp0 : pressure np 0 0 = 1.225 * 287.05287 * 288.15 := by
    rw [pressure_eq, temperature_eq, d0, hT0]
  have ht := temp_pos h 0
  have hle : isaTemp h 0 ≤ 288.15 := by rw [← hT0]; exact temp_anti 0 hh
  obtain ⟨n1, e1⟩ := tas2cas_spec v h 0
  have hsl := impact_le_sea_level hh v
  have hx1 : (isaTemp h 0 / 288.15) ^ (1.756848030018761 : ℝ) ≤ 1 :=
    Real.rpow_le_one (by positivity) (by rw [div_le_one (by norm_num)]; exact hle) (by norm_num)
  have hI0 : 0 ≤ impactPressure (pressure np 0 0) (density np 0 0) v :=
    impact_nonneg (pressure_pos 0 0) (density_pos 0 0) v
  refine ⟨eas_le_cas hv (by linarith), ?_, ?_⟩
  · rw [← impact_le_iff (p := 101325) (rho := 1.225) (by norm_num) (by norm_num) n1 (by positivity),
      e1]
    refine le_trans hsl (le_trans (mul_le_of_le_one_left hI0 hx1) ?_)
    rw [impact_eq, impact_eq, pp0, d0]
    have hu : 1.225 * v ^ 2 / (7 * (1.225 * 287.05287 * 288.15)) ≤
        1.225 * ((1 + 1e-8) * v) ^ 2 / (7 * 101325) := by
      rw [mul_pow]
      have : (0 : ℝ) ≤ v ^ 2 := by positivity
      rw [div_le_div_iff₀ (by norm_num) (by norm_num)]
      nlinarith
    have hF := F_mono (by positivity) hu
    have hF' := F_nonneg (u := 1.225 * v ^ 2 / (7 * (1.225 * 287.05287 * 288.15))) (by positivity)
    have : (1.225 * 287.05287 * 288.15 : ℝ) ≤ 101325 := by norm_num
    exact mul_le_mul this hF hF' (by norm_num)
  · intro hc
    rw [← impact_le_iff (p := 101325) (rho := 1.225) (by norm_num) (by norm_num) n1 hv, e1]
    refine le_trans hsl ?_
    -- temperature factor at 1 cm
    have hxc : isaTemp h 0 / 288.15 ≤ 1 - 2.25e-7 := by
      have h1 : isaTemp h 0 ≤ isaTemp 0.01 0 := temp_anti 0 hc
      have h2 : isaTemp 0.01 0 = 288.15 - 0.0065 * 0.01 := by
        simp only [isaTemp, h00]; norm_num
      rw [div_le_iff₀ (by norm_num)]
      rw [h2] at h1
      norm_num at h1 ⊢
      linarith
    have hxp : (isaTemp h 0 / 288.15) ^ (1.756848030018761 : ℝ) ≤ 1 - 2.25e-7 := by
      refine le_trans ?_ hxc
      have hx0 : 0 < isaTemp h 0 / 288.15 := by positivity
      have := Real.rpow_le_rpow_of_exponent_ge hx0 (by linarith)
        (show (1 : ℝ) ≤ 1.756848030018761 by norm_num)
      rwa [Real.rpow_one] at this
    rw [impact_eq, impact_eq, pp0, d0]
    set c := 1.225 * v ^ 2 / (7 * 101325) with hcdef
    have hc0 : 0 ≤ c := by positivity
    set l : ℝ := 101325 / (1.225 * 287.05287 * 288.15) with hl
    have hl1 : 1 ≤ l := by rw [hl]; norm_num
    have e2 : 1.225 * v ^ 2 / (7 * (1.225 * 287.05287 * 288.15)) = l * c := by
      rw [hl, hcdef]; field_simp
    rw [e2]
    have hs := F_scale_le hl1 hc0
    have hl3 : l ^ (3.5 : ℝ) ≤ l ^ 4 := by
      rw [← Real.rpow_natCast l 4]
      exact Real.rpow_le_rpow_of_exponent_le hl1 (by norm_num)
    have hFc := F_nonneg hc0
    have hl4 : (1 - 2.25e-7) * (1.225 * 287.05287 * 288.15) * l ^ 4 ≤ (101325 : ℝ) := by
      rw [hl]; norm_num
    have hFl : 0 ≤ F (l * c) := F_nonneg (by positivity)
    calc (isaTemp h 0 / 288.15) ^ (1.756848030018761 : ℝ) *
          (1.225 * 287.05287 * 288.15 * F (l * c))
        ≤ (1 - 2.25e-7) * (1.225 * 287.05287 * 288.15 * (l ^ 4 * F c)) := by
          have : F (l * c) ≤ l ^ 4 * F c := hs.trans (by gcongr)
          gcongr
      _ = ((1 - 2.25e-7) * (1.225 * 287.05287 * 288.15) * l ^ 4) * F c := by ring
      _ ≤ 101325 * F c := by gcongr

/-- The hypotheses of C09 and C10 are met by ordinary flight conditions. -/
example : (0:ℝ) ≤ 230 ∧ (0.01:ℝ) ≤ 10000 ∧ (0:ℝ) < 0.78 := by norm_num

end Verif.Props
