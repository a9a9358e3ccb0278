import Verif.Lemmas.Thrust
import Verif.Lemmas.GenDescent

/-!
# C108: how climb thrust varies with pressure, speed and climb rate
-/

namespace Verif.Props
open Verif.Aero Verif.Thrust Real

/-- **C108 (above 30000 ft).** At equal Mach number the thrust difference between two altitudes is
proportional to the logarithm of their pressure ratio, whatever the climb rates; at the reference
altitude thrust falls with the power 0.11 of the Mach number. -/
theorem C108_high (e : Thrust.Params ℝ) (hF : e.cruiseThrust * e.number ≠ 0) (dT M : ℝ) :
    (∀ tas₁ tas₂ alt₁ alt₂ roc₁ roc₂, 30000 < alt₁ → 30000 < alt₂ → 10 ≤ tas₁ → 10 ≤ tas₂ →
      tas₁ * 0.514444 / vsound np (alt₁ * 0.3048) dT = M →
      tas₂ * 0.514444 / vsound np (alt₂ * 0.3048) dT = M →
      climb np e tas₁ alt₁ roc₁ dT - climb np e tas₂ alt₂ roc₂ dT =
        e.cruiseThrust * e.number * ((1.0824 - 0.4204 * (M / e.cruiseMach)) *
          log (pressure np (alt₁ * 0.3048) dT / pressure np (alt₂ * 0.3048) dT))) ∧
    (∀ tas roc, 30000 < e.cruiseAlt → 10 ≤ tas →
      tas * 0.514444 / vsound np (e.cruiseAlt * 0.3048) dT = M →
      climb np e tas e.cruiseAlt roc dT =
        e.cruiseThrust * e.number * (M / e.cruiseMach) ^ (-(11 / 100) : ℝ)) := by
  have hm : ∀ tas alt, 10 ≤ tas → tas * 0.514444 / vsound np (alt * 0.3048) dT = M →
      mratio e tas alt dT = M / e.cruiseMach := by
    intro tas alt ht h
    unfold mratio
    rw [max_eq_right ht]
    rw [← h]; rfl
  constructor
  · intro t1 t2 a1 a2 r1 r2 h1 h2 ht1 ht2 hM1 hM2
    rw [climb_eq e hF, climb_eq e hF, if_pos h1, if_pos h2]
    unfold seg3 pratio
    rw [hm t1 a1 ht1 hM1, hm t2 a2 ht2 hM2]
    have p1 := pressure_pos (a1 * 0.3048) dT
    have p2 := pressure_pos (a2 * 0.3048) dT
    have pc := pressure_pos (e.cruiseAlt * 0.3048) dT
    rw [log_div p1.ne' pc.ne', log_div p2.ne' pc.ne', log_div p1.ne' p2.ne']
    unfold dfunc
    ring
  · intro t r h ht hM
    rw [climb_eq e hF, if_pos h]
    unfold seg3 pratio
    have pc := pressure_pos (e.cruiseAlt * 0.3048) dT
    rw [hm t _ ht hM, div_self pc.ne', log_one, mul_zero, zero_add, mul_comm]
    norm_num

/-- **C108 (above 30000 ft, direction).** At equal Mach number below 2.57 times the reference, more
altitude means less thrust. -/
theorem C108_high_falls (e : Thrust.Params ℝ) (hF : 0 < e.cruiseThrust * e.number)
    (hc : 0 < e.cruiseMach) (dT M : ℝ) (hM : M < 2.57 * e.cruiseMach)
    (tas₁ tas₂ alt₁ alt₂ roc₁ roc₂ : ℝ) (h1 : 30000 < alt₁) (h2 : alt₁ < alt₂) (ht1 : 10 ≤ tas₁)
    (ht2 : 10 ≤ tas₂) (hM1 : tas₁ * 0.514444 / vsound np (alt₁ * 0.3048) dT = M)
    (hM2 : tas₂ * 0.514444 / vsound np (alt₂ * 0.3048) dT = M) :
    climb np e tas₂ alt₂ roc₂ dT < climb np e tas₁ alt₁ roc₁ dT := by
  have h := (C108_high e hF.ne' dT M).1 tas₁ tas₂ alt₁ alt₂ roc₁ roc₂ h1 (h1.trans h2) ht1 ht2 hM1 hM2
  have p1 := pressure_pos (alt₁ * 0.3048) dT
  have p2 := pressure_pos (alt₂ * 0.3048) dT
  have hp : pressure np (alt₂ * 0.3048) dT < pressure np (alt₁ * 0.3048) dT :=
    pressure_strictAnti dT (by linarith)
  have hl : 0 < log (pressure np (alt₁ * 0.3048) dT / pressure np (alt₂ * 0.3048) dT) :=
    log_pos ((one_lt_div p2).2 hp)
  have hr : M / e.cruiseMach < 2.57 := (div_lt_iff₀ hc).2 hM
  have hd : 0 < 1.0824 - 0.4204 * (M / e.cruiseMach) := by nlinarith
  have := mul_pos hF (mul_pos hd hl)
  linarith

/-- **C108 (10000 to 30000 ft).** At equal calibrated airspeed and climb rate thrust is proportional
to a power of the pressure, 0.8633 plus 0.02667 per 1000 ft/min minus 0.355 times the ratio of the
calibrated airspeed to its reference; at the reference altitude thrust falls with the power 0.1 of
that ratio. -/
theorem C108_middle (e : Thrust.Params ℝ) (hF : e.cruiseThrust * e.number ≠ 0) (dT v roc : ℝ) :
    (∀ tas₁ tas₂ alt₁ alt₂, 10000 < alt₁ → alt₁ ≤ 30000 → 10000 < alt₂ → alt₂ ≤ 30000 →
      10 ≤ tas₁ → 10 ≤ tas₂ →
      tas2cas np (tas₁ * 0.514444) (alt₁ * 0.3048) dT /
        mach2cas np e.cruiseMach (e.cruiseAlt * 0.3048) dT = v →
      tas2cas np (tas₂ * 0.514444) (alt₂ * 0.3048) dT /
        mach2cas np e.cruiseMach (e.cruiseAlt * 0.3048) dT = v →
      climb np e tas₁ alt₁ roc dT = climb np e tas₂ alt₂ roc dT *
        (pressure np (alt₁ * 0.3048) dT / pressure np (alt₂ * 0.3048) dT) ^
          (0.8633 + 0.00002667 * |roc| - 0.355 * v : ℝ)) ∧
    (∀ tas, 10000 < e.cruiseAlt → e.cruiseAlt ≤ 30000 → 10 ≤ tas →
      tas2cas np (tas * 0.514444) (e.cruiseAlt * 0.3048) dT /
        mach2cas np e.cruiseMach (e.cruiseAlt * 0.3048) dT = v →
      climb np e tas e.cruiseAlt roc dT = e.cruiseThrust * e.number * v ^ (-(1 / 10) : ℝ)) := by
  have hv : ∀ tas alt, 10 ≤ tas → tas2cas np (tas * 0.514444) (alt * 0.3048) dT /
        mach2cas np e.cruiseMach (e.cruiseAlt * 0.3048) dT = v → vratio e tas alt dT = v := by
    intro tas alt ht h
    unfold vratio
    rw [max_eq_right ht, h]
  have pc := pressure_pos (e.cruiseAlt * 0.3048) dT
  constructor
  · intro t1 t2 a1 a2 h1 h1' h2 h2' ht1 ht2 hv1 hv2
    rw [climb_eq e hF, climb_eq e hF, if_neg (by linarith), if_pos h1, if_neg (by linarith), if_pos h2]
    unfold seg2 pratio
    rw [hv t1 a1 ht1 hv1, hv t2 a2 ht2 hv2]
    have p1 := pressure_pos (a1 * 0.3048) dT
    have p2 := pressure_pos (a2 * 0.3048) dT
    have hx : (-0.355 * v + nfunc |roc| : ℝ) = 0.8633 + 0.00002667 * |roc| - 0.355 * v := by
      unfold nfunc; norm_num; ring
    rw [hx]
    generalize (0.8633 + 0.00002667 * |roc| - 0.355 * v : ℝ) = k
    rw [div_rpow p1.le pc.le, div_rpow p2.le pc.le, div_rpow p1.le p2.le]
    have q2 := rpow_pos_of_pos p2 k
    have qc := rpow_pos_of_pos pc k
    revert q2 qc
    generalize pressure np (a2 * 0.3048) dT ^ k = x
    generalize pressure np (e.cruiseAlt * 0.3048) dT ^ k = y
    intro q2 qc
    field_simp
  · intro t h h' ht hv1
    rw [climb_eq e hF, if_neg (by linarith), if_pos h]
    unfold seg2 pratio
    rw [hv t _ ht hv1, div_self pc.ne', one_rpow, mul_one, mul_comm]
    norm_num

/-- **C108 (climb rate).** Between 10000 and 30000 ft, below the reference altitude, a larger climb
rate means more thrust. -/
theorem C108_climb_rate (e : Thrust.Params ℝ) (hF : 0 < e.cruiseThrust * e.number)
    (hc : 0 < e.cruiseMach) (tas alt dT r₁ r₂ : ℝ) (h1 : 10000 < alt) (h2 : alt ≤ 30000)
    (h3 : alt < e.cruiseAlt) (hr : |r₁| < |r₂|) :
    climb np e tas alt r₁ dT < climb np e tas alt r₂ dT := by
  rw [climb_eq e hF.ne', climb_eq e hF.ne', if_neg (by linarith), if_pos h1, if_neg (by linarith),
    if_pos h1]
  refine mul_lt_mul_of_pos_right ?_ hF
  unfold seg2
  have hv := vratio_pos e hc tas alt dT
  refine mul_lt_mul_of_pos_left ?_ (rpow_pos_of_pos hv _)
  refine rpow_lt_rpow_of_exponent_lt ?_ ?_
  · unfold pratio
    rw [one_lt_div (pressure_pos _ _)]
    exact pressure_strictAnti dT (by linarith)
  · unfold nfunc
    have : (2.667e-05 : ℝ) * |r₁| < 2.667e-05 * |r₂| := mul_lt_mul_of_pos_left hr (by norm_num)
    linarith

/-- **C108 (up to 10000 ft).** At equal calibrated airspeed and climb rate thrust is linear in the
pressure, with a slope that is largest at a climb rate of 1375 ft/min. -/
theorem C108_low (e : Thrust.Params ℝ) (hF : e.cruiseThrust * e.number ≠ 0) (dT v roc : ℝ)
    (tas₁ tas₂ alt₁ alt₂ : ℝ) (h1 : alt₁ ≤ 10000) (h2 : alt₂ ≤ 10000) (ht1 : 10 ≤ tas₁)
    (ht2 : 10 ≤ tas₂)
    (hv1 : tas2cas np (tas₁ * 0.514444) (alt₁ * 0.3048) dT /
        mach2cas np e.cruiseMach (e.cruiseAlt * 0.3048) dT = v)
    (hv2 : tas2cas np (tas₂ * 0.514444) (alt₂ * 0.3048) dT /
        mach2cas np e.cruiseMach (e.cruiseAlt * 0.3048) dT = v) :
    climb np e tas₁ alt₁ roc dT - climb np e tas₂ alt₂ roc dT = e.cruiseThrust * e.number *
      ((0.47379 - 0.12043 * v + 0.000024444 * |roc| - 0.0000000088889 * roc ^ 2) *
        ((pressure np (alt₁ * 0.3048) dT - pressure np (alt₂ * 0.3048) dT) /
          pressure np (e.cruiseAlt * 0.3048) dT)) := by
  have hv : ∀ tas alt, 10 ≤ tas → tas2cas np (tas * 0.514444) (alt * 0.3048) dT /
        mach2cas np e.cruiseMach (e.cruiseAlt * 0.3048) dT = v → vratio e tas alt dT = v := by
    intro tas alt ht h
    unfold vratio
    rw [max_eq_right ht, h]
  rw [climb_eq e hF, climb_eq e hF, if_neg (by linarith), if_neg (by linarith), if_neg (by linarith),
    if_neg (by linarith)]
  unfold seg1
  rw [hv _ _ ht1 hv1, hv _ _ ht2 hv2]
  unfold mfunc pratio
  rw [sq_abs]
  norm_num
  ring

/-- Two engines of 120 kN with a reference point at Mach 0.8 and 35000 ft: at Mach 0.78, 39000 ft gives
less thrust than 35000 ft, and at 20000 ft a climb rate of 2000 ft/min more than level flight. -/
example : ∃ (e : Thrust.Params ℝ) (tas₁ tas₂ : ℝ),
    climb np e tas₂ 39000 0 0 < climb np e tas₁ 35000 0 0 ∧
    climb np e 400 20000 0 0 < climb np e 400 20000 2000 0 := by
  have v1 := Gen.vsound_lower (35000 * 0.3048)
  have v2 := Gen.vsound_lower (39000 * 0.3048)
  refine ⟨⟨35000, 6, 120000, 2, 0.8, 25000⟩, 0.78 * vsound np (35000 * 0.3048) 0 / 0.514444,
    0.78 * vsound np (39000 * 0.3048) 0 / 0.514444, ?_, ?_⟩
  · refine C108_high_falls _ (by norm_num) (by norm_num) 0 0.78 (by norm_num) _ _ _ _ _ _ (by norm_num)
      (by norm_num) ?_ ?_ ?_ ?_
    · rw [le_div_iff₀ (by norm_num)]; nlinarith
    · rw [le_div_iff₀ (by norm_num)]; nlinarith
    · field_simp
    · field_simp
  · exact C108_climb_rate _ (by norm_num) (by norm_num) _ _ _ _ _ (by norm_num) (by norm_num)
      (by norm_num) (by norm_num)

end Verif.Props
