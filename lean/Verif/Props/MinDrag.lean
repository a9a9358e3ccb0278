import Verif.Spec.MinDrag
import Verif.Props.Drag
import Verif.Props.Fuel
import Verif.Props.Atmos

/-!
# C120: the speed of least drag and least fuel flow
-/

namespace Verif.Props
open Verif.Aero Verif.Drag Verif.Spec Real

theorem ratio_up {a b p q : ℝ} (ha : 0 < a) (hp : 0 < p) (hpq : p < q) (h : b ≤ a * p ^ 2) :
    a * p + b / p < a * q + b / q := by
  have hq : 0 < q := hp.trans hpq
  have e : a * q + b / q - (a * p + b / p) = (q - p) * (a * (p * q) - b) / (p * q) := by
    field_simp; ring
  have h1 : b < a * (p * q) := by nlinarith [mul_pos ha hp]
  have : 0 < (q - p) * (a * (p * q) - b) / (p * q) :=
    div_pos (mul_pos (by linarith) (by linarith)) (mul_pos hp hq)
  linarith

theorem ratio_down {a b p q : ℝ} (ha : 0 < a) (hp : 0 < p) (hpq : p < q) (h : a * q ^ 2 ≤ b) :
    a * q + b / q < a * p + b / p := by
  have hq : 0 < q := hp.trans hpq
  have e : a * p + b / p - (a * q + b / q) = (q - p) * (b - a * (p * q)) / (p * q) := by
    field_simp; ring
  have h1 : a * (p * q) < b := by nlinarith [mul_pos ha hq]
  have : 0 < (q - p) * (b - a * (p * q)) / (p * q) :=
    div_pos (mul_pos (by linarith) (by linarith)) (mul_pos hp hq)
  linarith

/-- Dynamic pressure times area at the speed of least drag. -/
theorem q_at_min {ρ S cd0 k W : ℝ} (hρ : 0 < ρ) (hS : 0 < S) (hc : 0 < cd0) (hk : 0 < k)
    (hW : 0 < W) : 0.5 * ρ * minDragSpeed ρ S cd0 k W ^ 2 * S = W * sqrt (k / cd0) := by
  unfold minDragSpeed
  rw [sq_sqrt (by positivity)]
  field_simp
  norm_num

theorem level_eq (ac : Airframe ℝ) (pol : Polar ℝ) (mass tas alt dT : ℝ) :
    clean np ac pol false mass tas alt 0 dT = pol.cd0 * qS ac tas alt dT +
      pol.k * (mass * 9.80665) ^ 2 / qS ac tas alt dT := by
  have : clean np ac pol false mass tas alt 0 dT =
      calcDrag np ac mass tas alt (pol.cd0 + 0.0) pol.k 0 dT := rfl
  rw [this, calcDrag_eq, lift_level_sq]; norm_num

/-- **C120** Level-flight drag without wave drag is least at the textbook speed, where it is twice
the geometric mean of the coefficients times the weight; it falls up to that speed and rises
beyond it. -/
theorem C120_min_drag (ac : Airframe ℝ) (pol : Polar ℝ) (h0 : 0 < pol.cd0) (hk : 0 < pol.k)
    (hS : 0 < ac.area) (mass alt dT : ℝ) (hm : 0 < mass)
    (hq : 0.001 ≤ mass * 9.80665 * sqrt (pol.k / pol.cd0)) :
    let v := minDragSpeed (density np (alt * 0.3048) dT) ac.area pol.cd0 pol.k (mass * 9.80665)
    (∀ tas, tas * 0.514444 = v →
      clean np ac pol false mass tas alt 0 dT = 2 * sqrt (pol.cd0 * pol.k) * (mass * 9.80665)) ∧
    (∀ t1 t2, v ≤ t1 * 0.514444 → t1 < t2 →
      clean np ac pol false mass t1 alt 0 dT < clean np ac pol false mass t2 alt 0 dT) ∧
    (∀ t1 t2, 0 ≤ t1 → t1 ≤ t2 → t2 * 0.514444 ≤ v →
      clean np ac pol false mass t2 alt 0 dT ≤ clean np ac pol false mass t1 alt 0 dT) ∧
    (∀ t1 t2, 0 ≤ t1 → t1 < t2 → t2 * 0.514444 ≤ v →
      0.001 < 0.5 * density np (alt * 0.3048) dT * (t2 * 0.514444) ^ 2 * ac.area →
      clean np ac pol false mass t2 alt 0 dT < clean np ac pol false mass t1 alt 0 dT) := by
  intro v
  have hρ := density_pos (alt * 0.3048) dT
  set ρ := density np (alt * 0.3048) dT with hρe
  have hW : 0 < mass * 9.80665 := by positivity
  set W := mass * 9.80665 with hWe
  have hv0 : 0 ≤ v := sqrt_nonneg _
  have hqv : 0.5 * ρ * v ^ 2 * ac.area = W * sqrt (pol.k / pol.cd0) :=
    q_at_min hρ hS h0 hk hW
  set q0 := W * sqrt (pol.k / pol.cd0) with hq0
  have hq0p : 0 < q0 := lt_of_lt_of_le (by norm_num) hq
  have hb : pol.cd0 * q0 ^ 2 = pol.k * W ^ 2 := by
    rw [hq0, mul_pow, sq_sqrt (by positivity)]; field_simp
  have qe : ∀ t, qS ac t alt dT = max (0.5 * ρ * (t * 0.514444) ^ 2 * ac.area) 0.001 := by
    intro t; unfold qS; norm_num [hρe]
  have qmono : ∀ a b : ℝ, 0 ≤ a → a ≤ b →
      0.5 * ρ * a ^ 2 * ac.area ≤ 0.5 * ρ * b ^ 2 * ac.area := by
    intro a b ha hab
    have : a ^ 2 ≤ b ^ 2 := pow_le_pow_left₀ ha hab 2
    have h5 : (0 : ℝ) < 0.5 * ρ := by positivity
    nlinarith [mul_le_mul_of_nonneg_left this h5.le]
  have qlt : ∀ a b : ℝ, 0 ≤ a → a < b →
      0.5 * ρ * a ^ 2 * ac.area < 0.5 * ρ * b ^ 2 * ac.area := by
    intro a b ha hab
    have : a ^ 2 < b ^ 2 := pow_lt_pow_left₀ hab ha two_ne_zero
    have h5 : (0 : ℝ) < 0.5 * ρ := by positivity
    exact mul_lt_mul_of_pos_right (mul_lt_mul_of_pos_left this h5) hS
  have qpos : ∀ t, 0 < qS ac t alt dT := fun t => qS_pos ac t alt dT
  have strict : ∀ t1 t2, 0 ≤ t2 → t2 * 0.514444 ≤ v →
      qS ac t1 alt dT < qS ac t2 alt dT →
      clean np ac pol false mass t2 alt 0 dT < clean np ac pol false mass t1 alt 0 dT := by
    intro t1 t2 h1 h2 hlt
    rw [level_eq, level_eq]
    have hle : qS ac t2 alt dT ≤ q0 := by
      rw [qe]
      refine max_le ?_ hq
      rw [← hqv]
      exact qmono _ _ (by positivity) h2
    have := ratio_down (b := pol.k * W ^ 2) h0 (qpos t1) hlt (by
      rw [← hb]
      exact mul_le_mul_of_nonneg_left (pow_le_pow_left₀ (qpos t2).le hle 2) h0.le)
    exact this
  refine ⟨?_, ?_, ?_, ?_⟩
  · intro tas ht
    rw [level_eq, qe, ht, hqv, max_eq_left hq, hq0]
    rw [sqrt_mul h0.le, sqrt_div hk.le]
    have s1 := sqrt_pos.2 h0
    have s2 := sqrt_pos.2 hk
    have e1 := sq_sqrt h0.le
    have e2 := sq_sqrt hk.le
    field_simp
    rw [e1, e2]; ring
  · intro t1 t2 h1 h12
    have hlt : qS ac t1 alt dT < qS ac t2 alt dT := by
      have a1 : 0 ≤ t1 * 0.514444 := hv0.trans h1
      have := qlt (t1 * 0.514444) (t2 * 0.514444) a1 (by nlinarith)
      have h3 := qmono v _ hv0 h1
      rw [hqv] at h3
      rw [qe, qe, max_eq_left (hq.trans h3), max_eq_left ((hq.trans h3).trans this.le)]
      exact this
    have hle : q0 ≤ qS ac t1 alt dT := by
      rw [qe, ← hqv]
      exact le_max_of_le_left (qmono v _ hv0 h1)
    rw [level_eq, level_eq]
    exact ratio_up (b := pol.k * W ^ 2) h0 (qpos t1) hlt (by
      rw [← hb]
      exact mul_le_mul_of_nonneg_left (pow_le_pow_left₀ hq0p.le hle 2) h0.le)
  · intro t1 t2 h1 h12 h2
    have := qmono (t1 * 0.514444) (t2 * 0.514444) (by positivity) (by nlinarith)
    have hle : qS ac t1 alt dT ≤ qS ac t2 alt dT := by
      rw [qe, qe]; exact max_le_max_right _ this
    rcases hle.eq_or_lt with he | hlt
    · rw [level_eq, level_eq, he]
    · exact (strict t1 t2 (h1.trans h12) h2 hlt).le
  · intro t1 t2 h1 h12 h2 h3
    have := qlt (t1 * 0.514444) (t2 * 0.514444) (by positivity) (by nlinarith)
    refine strict t1 t2 (h1.trans h12.le) h2 ?_
    rw [qe, qe]
    exact max_lt (lt_max_of_lt_left this) (lt_max_of_lt_left h3)

theorem level_fuel (f : Fuel.Params ℝ) (ac : Airframe ℝ) (pol : Polar ℝ) (mass tas alt dT : ℝ)
    (ht : 0 ≤ tas) (limit : Bool) : Fuel.enroute np f ac pol false mass tas alt 0 0 dT limit =
      Fuel.atThrust np f (clean np ac pol false mass tas alt 0 dT) := by
  have e : atan2R (0 * 0.00508) (tas * 0.514444) = 0 := by
    rw [zero_mul]
    exact Complex.arg_ofReal_of_nonneg (by positivity)
  show Fuel.atThrust np f (clean np ac pol false mass tas alt 0 dT + mass * 9.81 *
    sin (atan2R (0 * 0.00508) (tas * 0.514444)) + mass * 0) = _
  rw [e, sin_zero]; norm_num

/-- **C120** In level flight without wave drag the least fuel flow is at the same speed, and
nowhere else. -/
theorem C120_min_fuel (f : Fuel.Params ℝ) (hf : Fuel.Ok f) (ac : Airframe ℝ) (pol : Polar ℝ)
    (h0 : 0 < pol.cd0) (hk : 0 < pol.k) (hS : 0 < ac.area) (mass alt dT : ℝ) (hm : 0 < mass)
    (hq : 0.001 < mass * 9.80665 * sqrt (pol.k / pol.cd0)) (limit : Bool) (t1 t2 : ℝ)
    (h1 : t1 * 0.514444 =
      minDragSpeed (density np (alt * 0.3048) dT) ac.area pol.cd0 pol.k (mass * 9.80665))
    (h2 : 0 ≤ t2) (hne : t2 ≠ t1) :
    Fuel.enroute np f ac pol false mass t1 alt 0 0 dT limit <
      Fuel.enroute np f ac pol false mass t2 alt 0 0 dT limit := by
  obtain ⟨-, up, -, down⟩ := C120_min_drag ac pol h0 hk hS mass alt dT hm hq.le
  have hv0 : 0 ≤ t1 * 0.514444 := by rw [h1]; exact sqrt_nonneg _
  have ht1 : 0 ≤ t1 := by nlinarith
  rw [level_fuel _ _ _ _ _ _ _ ht1, level_fuel _ _ _ _ _ _ _ h2]
  have hpos := (C24_drag_positive ac pol h0 hk mass t1 alt dT hm).2.1 false 0
  refine Fuel.atThrust_strictMono f hf ?_ ?_
  · have := mul_pos hf.num hf.max
    norm_num; linarith
  · rcases lt_or_gt_of_ne hne with h | h
    · refine down t2 t1 h2 h h1.le ?_
      rw [h1, q_at_min (density_pos _ _) hS h0 hk (by positivity)]
      exact hq
    · exact up t1 t2 h1.ge h

/-- **C120** The speed of least drag is the same equivalent airspeed at every altitude and
temperature. -/
theorem C120_same_eas (S cd0 k W h dT : ℝ) (hS : 0 < S) (hW : 0 ≤ W) :
    tas2eas np (minDragSpeed (density np h dT) S cd0 k W) h dT = minDragSpeed 1.225 S cd0 k W := by
  have hρ := density_pos h dT
  show minDragSpeed (density np h dT) S cd0 k W * sqrt (density np h dT / 1.225) = _
  unfold minDragSpeed
  rw [← sqrt_mul (by positivity)]
  congr 1
  field_simp

/-- **C120** It grows with mass and with altitude. -/
theorem C120_faster (S cd0 k dT : ℝ) (hS : 0 < S) (h0 : 0 < cd0) (hk : 0 < k) (W1 W2 h1 h2 : ℝ)
    (hW : 0 < W1) (hW2 : W1 ≤ W2) (hh : h1 ≤ h2) (hne : W1 < W2 ∨ h1 < h2) :
    minDragSpeed (density np h1 dT) S cd0 k W1 < minDragSpeed (density np h2 dT) S cd0 k W2 := by
  have r1 := density_pos h1 dT
  have r2 := density_pos h2 dT
  have hr : density np h2 dT ≤ density np h1 dT := (C02_atmos_decreasing dT).2.1.antitone hh
  unfold minDragSpeed
  refine sqrt_lt_sqrt (by positivity) (mul_lt_mul_of_pos_right ?_ (sqrt_pos.2 (by positivity)))
  rw [div_lt_div_iff₀ (by positivity) (by positivity)]
  have : W1 * density np h2 dT < W2 * density np h1 dT := by
    rcases hne with h | h
    · calc W1 * density np h2 dT ≤ W1 * density np h1 dT := mul_le_mul_of_nonneg_left hr hW.le
        _ < W2 * density np h1 dT := mul_lt_mul_of_pos_right h r1
    · calc W1 * density np h2 dT < W1 * density np h1 dT :=
            mul_lt_mul_of_pos_left ((C02_atmos_decreasing dT).2.1 h) hW
        _ ≤ W2 * density np h1 dT := mul_le_mul_of_nonneg_right hW2 r1.le
  nlinarith [mul_lt_mul_of_pos_right this hS]

theorem a320_q : (0.001 : ℝ) < 66000 * 9.80665 * sqrt (a320polar.k / a320polar.cd0) := by
  have : (1 : ℝ) ≤ sqrt (a320polar.k / a320polar.cd0) := by
    rw [Real.one_le_sqrt]; norm_num [a320polar]
  nlinarith

/-- An A320 of 66 t at 20000 ft. -/
example (v : ℝ) (hv : v = minDragSpeed (density np (20000 * 0.3048) 0) 124 a320polar.cd0
      a320polar.k (66000 * 9.80665)) :
    Fuel.enroute np a318fuel a320 a320polar false 66000 (v / 0.514444) 20000 0 0 0 true <
      Fuel.enroute np a318fuel a320 a320polar false 66000 (v / 0.514444 + 10) 20000 0 0 0 true := by
  have : 0 ≤ v := hv ▸ sqrt_nonneg _
  refine C120_min_fuel a318fuel a318fuel_ok a320 a320polar (by norm_num [a320polar])
    (by norm_num [a320polar]) (by norm_num [a320]) 66000 20000 0 (by norm_num) a320_q true _ _
    ((div_mul_cancel₀ _ (by norm_num)).trans hv) (by positivity) (by linarith)

example : clean np a320 a320polar false 66000 400 20000 0 0 <
    clean np a320 a320polar false 66000 450 20000 0 0 ∨
    400 * 0.514444 < minDragSpeed (density np (20000 * 0.3048) 0) 124 a320polar.cd0 a320polar.k
      (66000 * 9.80665) := by
  by_cases h : minDragSpeed (density np (20000 * 0.3048) 0) 124 a320polar.cd0 a320polar.k
      (66000 * 9.80665) ≤ 400 * 0.514444
  · exact Or.inl ((C120_min_drag a320 a320polar (by norm_num [a320polar])
      (by norm_num [a320polar]) (by norm_num [a320]) 66000 20000 0 (by norm_num) a320_q.le).2.1
      400 450 h (by norm_num))
  · exact Or.inr (not_le.1 h)

end Verif.Props
