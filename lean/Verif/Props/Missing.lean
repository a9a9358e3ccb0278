import Verif.Lemmas.NR
import Verif.Lemmas.Aero
import Verif.Model.Fuel

/-!
# C22: missing values
-/

namespace Verif.Props
open Verif.NR Verif.Aero

private theorem pw (m : ℕ) (s : Bool) (e : ℕ) (h : (OfScientific.ofScientific m s e : ℝ) ≠ 0) :
    npNR.power nan (OfScientific.ofScientific m s e) = nan := power_nan _ h
private theorem n_exp : npNR.exp nan = nan := rfl
private theorem n_sqrt : npNR.sqrt nan = nan := rfl
private theorem n_log : npNR.log nan = nan := rfl
private theorem n_max1 (x : NR) : npNR.maximum nan x = nan := nan_map₂ max x
private theorem n_max2 (x : NR) : npNR.maximum x nan = nan := map₂_nan max x
private theorem n_clip (x y : NR) : npNR.clip nan x y = nan := by
  change map₂ min (map₂ max nan x) y = nan
  rw [nan_map₂, nan_map₂]
private theorem n_where1 (c x : NR) : npNR.whereGt nan c x nan = nan := by cases c <;> rfl
private theorem n_where (a c : NR) : npNR.whereGt a c nan nan = nan := by
  cases a <;> cases c <;> simp [npNR, NR.whereGt]
private theorem pw27 : npNR.power nan (2.0 / 7.0) = nan := by
  have : ((2.0 : NR) / 7.0) = val (2.0 / 7.0) := val_div _ _ (by norm_num)
  rw [this]; exact power_nan _ (by norm_num)
private theorem n_sq : (nan : NR) ^ 2 = nan := nan_pow _ (by norm_num)

/-- **C22 (NumPy).** A NaN altitude (or pressure), speed or temperature shift always yields
NaN from every atmosphere and airspeed function, whatever the other arguments. -/
theorem C22_numpy_nan (x y : NR) :
    -- atmosphere: altitude, temperature shift
    (temperature npNR .nan x = .nan ∧ temperature npNR x .nan = .nan) ∧
    (pressure npNR .nan x = .nan ∧ pressure npNR x .nan = .nan) ∧
    (density npNR .nan x = .nan ∧ density npNR x .nan = .nan) ∧
    (vsound npNR .nan x = .nan ∧ vsound npNR x .nan = .nan) ∧
    (hIsa npNR .nan x = .nan ∧ hIsa npNR x .nan = .nan) ∧
    -- airspeeds: speed, altitude, temperature shift
    (tas2mach npNR .nan x y = .nan ∧ tas2mach npNR x .nan y = .nan ∧
      tas2mach npNR x y .nan = .nan) ∧
    (mach2tas npNR .nan x y = .nan ∧ mach2tas npNR x .nan y = .nan ∧
      mach2tas npNR x y .nan = .nan) ∧
    (eas2tas npNR .nan x y = .nan ∧ eas2tas npNR x .nan y = .nan ∧
      eas2tas npNR x y .nan = .nan) ∧
    (tas2eas npNR .nan x y = .nan ∧ tas2eas npNR x .nan y = .nan ∧
      tas2eas npNR x y .nan = .nan) ∧
    (cas2tas npNR .nan x y = .nan ∧ cas2tas npNR x .nan y = .nan ∧
      cas2tas npNR x y .nan = .nan) ∧
    (tas2cas npNR .nan x y = .nan ∧ tas2cas npNR x .nan y = .nan ∧
      tas2cas npNR x y .nan = .nan) ∧
    (mach2cas npNR .nan x y = .nan ∧ mach2cas npNR x .nan y = .nan ∧
      mach2cas npNR x y .nan = .nan) ∧
    (cas2mach npNR .nan x y = .nan ∧ cas2mach npNR x .nan y = .nan ∧
      cas2mach npNR x y .nan = .nan) ∧
    (crossoverAlt npNR .nan x y = .nan ∧ crossoverAlt npNR x .nan y = .nan ∧
      crossoverAlt npNR x y .nan = .nan) := by
  have at1 : ∀ x, atmos npNR .nan x = (.nan, .nan, .nan) := by
    intro x
    simp only [atmos, n_max1, n_max2, mul_nan, add_nan, nan_add, nan_div, nan_mul,
      pw _ _ _ (show (4.256848030018761 : ℝ) ≠ 0 by norm_num)]
  have at2 : ∀ x, atmos npNR x .nan = (.nan, .nan, .nan) := by
    intro x
    simp only [atmos, n_clip, n_max1, n_max2, mul_nan, add_nan, nan_add, nan_div, nan_mul,
      pw _ _ _ (show (4.256848030018761 : ℝ) ≠ 0 by norm_num)]
  have hbeta : (beta * R / g0 : NR) = val (-0.0065 * 287.05287 / 9.80665) := by
    simp only [beta, R, g0, val_sci, val_neg, val_mul]
    rw [val_div _ _ (by norm_num)]
  have hbeta' : (-1.0 * R * beta / g0 : NR) = val (-1.0 * 287.05287 * -0.0065 / 9.80665) := by
    simp only [beta, R, g0, val_sci, val_neg, val_mul]
    rw [val_div _ _ (by norm_num)]
  have pb : npNR.power nan (beta * R / g0) = nan := by
    rw [hbeta]; exact power_nan _ (by norm_num)
  have pb' : npNR.power nan (-1.0 * R * beta / g0) = nan := by
    rw [hbeta']; exact power_nan _ (by norm_num)
  have p35 := pw _ _ _ (show (3.5 : ℝ) ≠ 0 by norm_num)
  simp only [temperature, pressure, density, vsound, hIsa, tas2mach, mach2tas, eas2tas, tas2eas,
    cas2tas, tas2cas, mach2cas, cas2mach, crossoverAlt, at1, at2, n_exp, n_sqrt, n_log, n_max1,
    n_max2, mul_nan, add_nan, nan_add, nan_div, div_nan, nan_mul, nan_sub, sub_nan, n_where1,
    n_where, pb, pb', p35, pw27, n_sq, and_self]

private theorem n_whereN (c x y : NR) : npNR.whereGt nan c x y = y := by cases c <;> rfl
private theorem n_at1 (x : NR) : npNR.arctan2 nan x = nan := nan_map₂ atan2R x
private theorem n_at2 (x : NR) : npNR.arctan2 x nan = nan := map₂_nan atan2R x
private theorem n_cos : npNR.cos nan = nan := rfl
private theorem n_sin : npNR.sin nan = nan := rfl
private theorem n_abs : npNR.abs nan = nan := rfl
private theorem n_4 : (nan : NR) ^ 4 = nan := nan_pow _ (by norm_num)
private theorem n_3 : (nan : NR) ^ 3 = nan := nan_pow _ (by norm_num)

/-- **C22 (NumPy, performance models).** A NaN mass, speed, altitude, vertical rate,
acceleration or temperature shift makes drag, thrust and fuel flow NaN. -/
theorem C22_numpy_nan_performance (ac : Drag.Airframe NR) (pol : Drag.Polar NR)
    (e : Thrust.Params NR) (f : Fuel.Params NR) (wave gear : Bool) (m v h w a t q : NR) :
    (Drag.clean npNR ac pol wave .nan v h w t = .nan ∧
      Drag.clean npNR ac pol wave m .nan h w t = .nan ∧
      Drag.clean npNR ac pol wave m v .nan w t = .nan ∧
      Drag.clean npNR ac pol wave m v h .nan t = .nan ∧
      Drag.clean npNR ac pol wave m v h w .nan = .nan) ∧
    (Drag.nonclean npNR ac pol .nan v h q w t gear = .nan ∧
      Drag.nonclean npNR ac pol m .nan h q w t gear = .nan ∧
      Drag.nonclean npNR ac pol m v .nan q w t gear = .nan ∧
      Drag.nonclean npNR ac pol m v h .nan w t gear = .nan ∧
      Drag.nonclean npNR ac pol m v h q .nan t gear = .nan ∧
      Drag.nonclean npNR ac pol m v h q w .nan gear = .nan) ∧
    (Thrust.takeoff npNR e .nan h t = .nan ∧ Thrust.takeoff npNR e v .nan t = .nan ∧
      Thrust.takeoff npNR e v h .nan = .nan) ∧
    (Thrust.climb npNR e .nan h w t = .nan ∧ Thrust.climb npNR e v .nan w t = .nan ∧
      Thrust.climb npNR e v h w .nan = .nan) ∧
    (Fuel.enroute npNR f ac pol wave .nan v h w a t false = .nan ∧
      Fuel.enroute npNR f ac pol wave m .nan h w a t false = .nan ∧
      Fuel.enroute npNR f ac pol wave m v .nan w a t false = .nan ∧
      Fuel.enroute npNR f ac pol wave m v h .nan a t false = .nan ∧
      Fuel.enroute npNR f ac pol wave m v h w .nan t false = .nan ∧
      Fuel.enroute npNR f ac pol wave m v h w a .nan false = .nan) := by
  have T1 := fun x y => (C22_numpy_nan x y).1
  have P1 := fun x y => (C22_numpy_nan x y).2.1
  have D1 := fun x y => (C22_numpy_nan x y).2.2.1
  have M1 := fun x y => (C22_numpy_nan x y).2.2.2.2.2.1
  have C1 := fun x y => (C22_numpy_nan x y).2.2.2.2.2.2.2.2.2.2.1
  have C2 := fun x y => (C22_numpy_nan x y).2.2.2.2.2.2.2.2.2.2.2.1
  have p01 : npNR.power nan (-0.1) = nan := power_nan _ (by norm_num)
  have p011 : npNR.power nan (-0.11) = nan := power_nan _ (by norm_num)
  have hD1 : ∀ x, density npNR .nan x = .nan := fun x => (D1 x x).1
  have hD2 : ∀ x, density npNR x .nan = .nan := fun x => (D1 x x).2
  have hP1 : ∀ x, pressure npNR .nan x = .nan := fun x => (P1 x x).1
  have hP2 : ∀ x, pressure npNR x .nan = .nan := fun x => (P1 x x).2
  have hM1 : ∀ x y, tas2mach npNR .nan x y = .nan := fun x y => (M1 x y).1
  have hM2 : ∀ x y, tas2mach npNR x .nan y = .nan := fun x y => (M1 x y).2.1
  have hM3 : ∀ x y, tas2mach npNR x y .nan = .nan := fun x y => (M1 x y).2.2
  have hC1 : ∀ x y, tas2cas npNR .nan x y = .nan := fun x y => (C1 x y).1
  have hC2 : ∀ x y, tas2cas npNR x .nan y = .nan := fun x y => (C1 x y).2.1
  have hC3 : ∀ x y, tas2cas npNR x y .nan = .nan := fun x y => (C1 x y).2.2
  have hD : ∀ cd0 k, Drag.calcDrag npNR ac .nan v h cd0 k w t = .nan ∧
      Drag.calcDrag npNR ac m .nan h cd0 k w t = .nan ∧
      Drag.calcDrag npNR ac m v .nan cd0 k w t = .nan ∧
      Drag.calcDrag npNR ac m v h cd0 k .nan t = .nan ∧
      Drag.calcDrag npNR ac m v h cd0 k w .nan = .nan ∧
      Drag.calcDrag npNR ac m v h .nan k w t = .nan := by
    intro cd0 k
    simp only [Drag.calcDrag, Drag.cl, nan_mul, mul_nan, nan_div, div_nan, n_sq, add_nan, nan_add,
      n_at1, n_at2, n_cos, hD1, hD2, n_max1, and_self]
  have hF : Fuel.atThrust npNR f .nan = .nan := by
    simp only [Fuel.atThrust, Fuel.limiter, Fuel.funcFuel, nan_div, nan_sub, mul_nan, n_exp,
      add_nan, n_log, nan_add, nan_mul, sub_nan]
  refine ⟨?_, ?_, ?_, ?_, ?_⟩
  · simp only [Drag.clean, hD, and_self]
  · have : Drag.flapCd npNR pol .nan = .nan := by
      simp only [Drag.flapCd, nan_mul, nan_div, n_sin, n_sq, mul_nan]
    have h6 := fun k => (hD .nan k).2.2.2.2.2
    simp only [Drag.nonclean, hD, h6, this, add_nan, nan_add, and_self]
  · simp only [Thrust.takeoff, Thrust.takeoffRatio, hM1, hP1, hM3, nan_mul, nan_div,
      mul_nan, n_sq, n_3, add_nan, nan_add, nan_sub, sub_nan, and_self]
  · simp only [Thrust.climb, n_max2, nan_mul, mul_nan, hM1, hM2, hM3, hC1, hC2, hC3, hP1, hP2,
      nan_div, div_nan, p01, p011, Thrust.dfunc, Thrust.mfunc, add_nan, nan_add, nan_sub, sub_nan,
      n_whereN, n_where, and_self]
  · simp only [Fuel.enroute, Fuel.enrouteThrust, Drag.clean, hD, nan_add, nan_mul, n_at1, n_at2,
      n_sin, mul_nan, add_nan, hF, and_self]

/-- **C22 (climb rate).** The one exception: above 30000 ft a NaN climb rate is not noticed;
the result is the one of level flight. -/
theorem C22_climb_rate_unused_high (e : Thrust.Params NR) (v t : NR) (alt : ℝ)
    (h : 30000 < alt) :
    Thrust.climb npNR e v (.val alt) .nan t = Thrust.cruise npNR e v (.val alt) t := by
  have hw : ∀ x y : NR, npNR.whereGt (.val alt) 30000.0 x y = x := by
    intro x y
    have : (30000.0 : ℝ) < alt := by norm_num; exact h
    change (if alt > 30000.0 then x else y) = x
    rw [if_pos this]
  simp only [Thrust.climb, Thrust.cruise, hw]

/-- **C22 (CasADi).** With the CasADi backend a NaN altitude silently yields a finite
temperature: the tropopause value. -/
theorem C22_casadi_hides_nan (dT : ℝ) :
    temperature casadiNR .nan (.val dT) = .val (216.65 + Spec.shift dT) := by
  have hc : casadiNR.clip (.val dT) (-25.0) 15.0 = .val (Spec.shift dT) := by
    rw [← clip_shift]
    change NR.val (max (-25.0) (min dT 15.0)) = .val (min (max dT (-25.0)) 15.0)
    rw [max_min_distrib_left, max_comm _ dT, max_eq_right (by norm_num : (-25.0 : ℝ) ≤ 15.0)]
  simp only [temperature, atmos, hc, mul_nan, add_nan]
  rfl

example : temperature casadiNR .nan (.val 0) ≠ .nan ∧ temperature npNR .nan (.val 0) = .nan := by
  rw [C22_casadi_hides_nan]
  exact ⟨by simp, (C22_numpy_nan (.val 0) (.val 0)).1.1⟩

end Verif.Props
