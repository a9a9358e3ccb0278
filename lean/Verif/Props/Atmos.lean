import Verif.Lemmas.Hydrostatic
import Verif.Lemmas.NR

/-!
# C01-C04: the atmosphere
-/

namespace Verif.Props
open Verif.Aero Verif.Spec

/-- **C01.** Pressure, density and temperature are positive everywhere, temperature never
falls below 191.65 K, the ideal-gas law holds, and with NaN tracked explicitly every
operation stays in its domain (the result is the tuple of those real numbers). -/
theorem C01_atmos_physical (h dT : ℝ) :
    0 < pressure np h dT ∧ 0 < density np h dT ∧ 191.65 ≤ temperature np h dT ∧
    pressure np h dT = density np h dT * 287.05287 * temperature np h dT ∧
    atmos npNR (.val h) (.val dT) =
      (.val (pressure np h dT), .val (density np h dT), .val (temperature np h dT)) := by
  refine ⟨pressure_pos h dT, density_pos h dT, ?_, pressure_eq h dT, ?_⟩
  · rw [temperature_eq]
    have := temp_lower h dT
    have := (shift_bounds dT).1
    linarith
  · have hc := clip_shift dT
    have hT := temperature_eq h dT
    have h0 := T0s_pos dT
    have ht := temp_pos h dT
    simp only [pressure, density, temperature, atmos, hc] at hT ⊢
    simp only [np, clipR] at hc hT ⊢
    simp only [npNR, NR.val_sci, T0, beta, rho0, R, NR.val_neg, NR.map₂_val, NR.val_add,
      NR.val_mul, NR.val_sub, NR.map_val, hc] at hT ⊢
    rw [hT]
    rw [NR.val_div _ _ h0.ne', NR.power_val _ _ (div_pos ht h0), NR.val_div _ _ (by norm_num)]
    simp only [NR.map_val, NR.val_mul]

/-- **C02.** Higher means strictly lower pressure and density, never warmer, never a
higher speed of sound. -/
theorem C02_atmos_decreasing (dT : ℝ) :
    StrictAnti (fun h => pressure np h dT) ∧ StrictAnti (fun h => density np h dT) ∧
    Antitone (fun h => temperature np h dT) ∧ Antitone (fun h => vsound np h dT) := by
  refine ⟨pressure_strictAnti dT, density_strictAnti dT, ?_, ?_⟩
  · intro a c hac
    simpa only [temperature_eq] using temp_anti dT hac
  · intro a c hac
    simp only [vsound_eq]
    exact Real.sqrt_le_sqrt (mul_le_mul_of_nonneg_left (temp_anti dT hac) (by norm_num))

/-- **C03.** The temperature profile is the shifted ISA profile with its kink at exactly
11 km for every shift; the shift saturates at -25 and +15 K; the profile is continuous;
sea-level density is 1.225 for every shift; the standard day has 288.15 K at sea level. -/
theorem C03_isa_profile (dT : ℝ) :
    (∀ h, temperature np h dT = isaTemp h dT) ∧
    (∀ h, temperature np h dT - temperature np h 0 = shift dT) ∧
    Continuous (fun h => temperature np h dT) ∧
    density np 0 dT = 1.225 ∧
    (∀ h, dT ≤ -25 → atmos np h dT = atmos np h (-25)) ∧
    (∀ h, 15 ≤ dT → atmos np h dT = atmos np h 15) := by
  have h00 : shift 0 = 0 := by simp [shift]; norm_num
  refine ⟨fun h => temperature_eq h dT, fun h => ?_, ?_, ?_, ?_, ?_⟩
  · rw [temperature_eq, temperature_eq]
    simp only [isaTemp, h00]
    split_ifs <;> ring
  · simp only [temperature, atmos]
    simp only [np]
    fun_prop
  · rw [density_eq]
    have h1 : isaTemp 0 dT = 288.15 + shift dT := by simp [isaTemp]
    rw [h1, div_self (T0s_pos dT).ne', Real.one_rpow, max_eq_left (by norm_num)]
    simp
  · intro h hd
    have h1 : shift dT = shift (-25) := by
      simp only [shift]; split_ifs <;> linarith
    simp only [atmos, clip_shift, h1]
  · intro h hd
    have h1 : shift dT = shift 15 := by
      simp only [shift]; split_ifs <;> linarith
    simp only [atmos, clip_shift, h1]

/-- Non-trivial instance: both layers and both saturations are inhabited. -/
example : isaTemp 5000 0 = 255.65 ∧ isaTemp 12000 40 = 231.65 ∧ shift (-60) = -25 := by
  refine ⟨?_, ?_, ?_⟩ <;> simp only [isaTemp, shift] <;> norm_num

/-- **C04.** Hydrostatic balance with a gravity within 0.02 % of 9.80665: in the
troposphere for every temperature shift, in the stratosphere on a standard day. -/
theorem C04_hydrostatic (h dT : ℝ) (hh : h < 11000 ∨ (11000 < h ∧ dT = 0)) :
    ∃ g, Within 0.0002 9.80665 g ∧
      HydrostaticAt (fun h => pressure np h dT) (fun h => density np h dT) g h := by
  rcases hh with hh | ⟨hh, rfl⟩
  · exact ⟨_, by unfold Within; norm_num [abs_le], hydrostatic_trop h dT hh⟩
  · refine ⟨_, ?_, hydrostatic_strat h 0 hh⟩
    have h00 : shift 0 = 0 := by simp [shift]; norm_num
    unfold Within; rw [h00]; norm_num [abs_le]

/-- The restriction to a standard day in C04 is needed: with `dT = 15` the stratosphere
is out of balance by more than 6 %. -/
theorem C04_not_hydrostatic_warm_stratosphere (h g : ℝ) (hh : 11000 < h)
    (hg : HydrostaticAt (fun h => pressure np h 15) (fun h => density np h 15) g h) :
    ¬ Within 0.06 9.80665 g := by
  have h1 := hydrostatic_strat h 15 hh
  have h2 := hg.unique h1
  have hpos := density_pos h 15
  have h15 : shift 15 = 15 := by simp [shift]; norm_num
  rw [h15] at h2
  have h3 : g = 287.05287 * (216.65 + 15) / 6341.552161 := by
    have := mul_left_cancel₀ hpos.ne' (neg_injective h2)
    exact this
  rw [h3]
  unfold Within
  norm_num [abs_le]

end Verif.Props
