import Verif.Model.Drag
import Verif.Lemmas.Aero
import Verif.Lemmas.Geo

namespace Verif.Drag
open Verif.Aero Real

/-- Dynamic pressure times area, with the code's floor. -/
noncomputable def qS (ac : Airframe ℝ) (tas alt dT : ℝ) : ℝ :=
  max (0.5 * density np (alt * 0.3048) dT * (tas * 0.514444) ^ 2 * ac.area) 1e-3

/-- Lift. -/
noncomputable def lift (mass tas vs : ℝ) : ℝ :=
  mass * 9.80665 * cos (atan2R (vs * 0.00508) (tas * 0.514444))

theorem qS_pos (ac : Airframe ℝ) (tas alt dT : ℝ) : 0 < qS ac tas alt dT :=
  lt_max_of_lt_right (by norm_num)

theorem cl_eq (ac : Airframe ℝ) (mass tas alt vs dT : ℝ) :
    cl np ac mass tas alt vs dT = (lift mass tas vs / qS ac tas alt dT, qS ac tas alt dT) := rfl

theorem calcDrag_eq (ac : Airframe ℝ) (mass tas alt cd0 k vs dT : ℝ) :
    calcDrag np ac mass tas alt cd0 k vs dT =
      cd0 * qS ac tas alt dT + k * lift mass tas vs ^ 2 / qS ac tas alt dT := by
  have := qS_pos ac tas alt dT
  simp only [calcDrag, cl_eq]
  field_simp

/-- `|cos γ|` from the speeds. -/
theorem cos_atan2_eq (w v : ℝ) (h : v ≠ 0 ∨ w ≠ 0) :
    cos (atan2R w v) = v / sqrt (v ^ 2 + w ^ 2) := by
  have hp : 0 < v ^ 2 + w ^ 2 := by
    rcases h with h | h
    · have := sq_pos_of_ne_zero h; positivity
    · have := sq_pos_of_ne_zero h; positivity
  rw [eq_div_iff (sqrt_pos.2 hp).ne']
  exact (Geo.cos_atan2 w v).1

theorem cos_atan2_neg (w v : ℝ) : cos (atan2R (-w) v) = cos (atan2R w v) := by
  by_cases h : v ≠ 0 ∨ w ≠ 0
  · rw [cos_atan2_eq w v h, cos_atan2_eq (-w) v (by simpa using h), neg_sq]
  · push Not at h
    rw [h.2, neg_zero]

theorem cos_atan2_zero (v : ℝ) : cos (atan2R 0 v) ^ 2 = 1 := by
  by_cases h : v ≠ 0
  · have h2 : v ^ 2 ≠ 0 := pow_ne_zero 2 h
    rw [cos_atan2_eq 0 v (Or.inl h), div_pow, sq_sqrt (by positivity)]
    simp [h2]
  · push Not at h
    have : atan2R 0 v = 0 := by rw [h]; exact Complex.arg_zero
    rw [this, cos_zero]; norm_num

theorem lift_neg_vs (mass tas vs : ℝ) : lift mass tas (-vs) = lift mass tas vs := by
  unfold lift; rw [neg_mul, cos_atan2_neg]

theorem lift_level_sq (mass tas : ℝ) : lift mass tas 0 ^ 2 = (mass * 9.80665) ^ 2 := by
  unfold lift; rw [mul_pow, zero_mul, cos_atan2_zero, mul_one]

theorem lift_sq_le (mass tas vs : ℝ) : lift mass tas vs ^ 2 ≤ (mass * 9.80665) ^ 2 := by
  unfold lift; rw [mul_pow]
  have := cos_sq_le_one (atan2R (vs * 0.00508) (tas * 0.514444))
  nlinarith [sq_nonneg (mass * 9.80665)]

theorem lift_scale (mass tas vs : ℝ) : lift mass tas vs = mass * lift 1 tas vs := by
  unfold lift; ring

theorem lift_one_ne (tas vs : ℝ) (h : tas ≠ 0 ∨ vs = 0) : lift 1 tas vs ≠ 0 := by
  unfold lift
  rcases h with h | h
  · have hv : tas * 0.514444 ≠ 0 := mul_ne_zero h (by norm_num)
    rw [cos_atan2_eq _ _ (Or.inl hv)]
    have : 0 < (tas * 0.514444) ^ 2 + (vs * 0.00508) ^ 2 := by
      have := sq_pos_of_ne_zero hv; positivity
    have := (sqrt_pos.2 this).ne'
    positivity
  · rw [h, zero_mul]
    intro h0
    have : cos (atan2R 0 (tas * 0.514444)) = 0 := by
      rcases mul_eq_zero.1 h0 with h | h
      · norm_num at h
      · exact h
    have h1 := cos_atan2_zero (tas * 0.514444)
    rw [this] at h1
    norm_num at h1

theorem amgm {a c q : ℝ} (ha : 0 ≤ a) (hc : 0 ≤ c) (hq : 0 < q) (L : ℝ) :
    2 * sqrt (a * c) * |L| ≤ a * q + c * L ^ 2 / q := by
  have e : a * q + c * L ^ 2 / q - 2 * sqrt (a * c) * |L| =
      (sqrt a * sqrt q - sqrt c * |L| / sqrt q) ^ 2 := by
    have hq' : sqrt q ≠ 0 := (sqrt_pos.2 hq).ne'
    rw [sqrt_mul ha, sub_sq, mul_pow, div_pow, mul_pow, sq_sqrt ha, sq_sqrt hc, sq_sqrt hq.le,
      sq_abs]
    field_simp
    ring
  have := sq_nonneg (sqrt a * sqrt q - sqrt c * |L| / sqrt q)
  linarith

/-- Critical Mach number with plain literals. -/
theorem machCrit_eq (ac : Airframe ℝ) (l : ℝ) : machCrit np ac l =
    0.95 / cos (ac.sweep * π / 180) - ac.tc.getD 0.12 / cos (ac.sweep * π / 180) ^ 2
      - 0.1 * l / cos (ac.sweep * π / 180) ^ 3 - 0.108 := by
  simp only [machCrit, np, show (180.0 : ℝ) = 180 by norm_num]

theorem waveDrag_eq (ac : Airframe ℝ) (mass tas alt dT : ℝ) : waveDrag np ac mass tas alt dT =
    20 * max (tas2mach np (tas * 0.514444) (alt * 0.3048) dT -
      machCrit np ac (lift mass tas 0 / qS ac tas alt dT)) 0 ^ 4 := by
  simp only [waveDrag, cl_eq]
  simp only [np, kts, ft, show (0.0 : ℝ) = 0 by norm_num, show (20.0 : ℝ) = 20 by norm_num]

theorem waveDrag_nonneg (ac : Airframe ℝ) (mass tas alt dT : ℝ) :
    0 ≤ waveDrag np ac mass tas alt dT := by
  rw [waveDrag_eq]; positivity

theorem flapCd_eq (pol : Polar ℝ) (flap : ℝ) : flapCd np pol flap =
    pol.lambdaF * pol.cfc ^ (1.38 : ℝ) * pol.sfs * sin (flap * π / 180) ^ 2 := by
  simp only [flapCd, np, show (180.0 : ℝ) = 180 by norm_num]

theorem gearCd_eq (ac : Airframe ℝ) (hm : 0 < ac.mtow) : gearCd np ac =
    9.80665 * 3.16e-5 * ac.mtow ^ (0.785 : ℝ) / ac.area := by
  simp only [gearCd, np, g0]
  have : ac.mtow ^ (0.785 : ℝ) = ac.mtow * ac.mtow ^ (-0.215 : ℝ) := by
    rw [show (0.785 : ℝ) = 1 + (-0.215) by norm_num, rpow_add hm, rpow_one]
  rw [this]; ring

theorem flapK_eq (ac : Airframe ℝ) (pol : Polar ℝ) (flap : ℝ) : flapK np ac pol flap =
    1 / (1 / pol.k + π * (ac.span ^ 2 / ac.area) *
      ((if ac.rear then 0.0046 else 0.0026) * flap)) := by
  simp only [flapK, np, show (1.0 : ℝ) = 1 by norm_num]
  split <;> rfl

end Verif.Drag
