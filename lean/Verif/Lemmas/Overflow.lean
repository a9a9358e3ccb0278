import Verif.Prelude.Overflow
import Verif.Model.DataRecords
import Verif.Lemmas.Drag
import Verif.Lemmas.Fuel
import Verif.Spec.Overflow

/-! The model on a carrier that overflows: computation rules, atmosphere, drag and fuel flow. -/

namespace Verif.XR
open Verif.Aero Verif.Spec Real

variable {Ω : ℝ} {x y : ℝ}

theorem res_fin (h : |x| < Ω) : (res x : XR Ω) = fin x := by
  obtain ⟨h1, h2⟩ := abs_lt.1 h
  rw [res, if_neg (by linarith), if_neg (by linarith)]

theorem res_pinf (h : Ω ≤ x) : (res x : XR Ω) = pinf := if_pos h

theorem fin_sci (m : ℕ) (s : Bool) (e : ℕ) :
    (OfScientific.ofScientific m s e : XR Ω) = fin (OfScientific.ofScientific m s e) := rfl
theorem fin_neg : -(fin x : XR Ω) = fin (-x) := rfl
theorem fin_add (h : |x + y| < Ω) : (fin x : XR Ω) + fin y = fin (x + y) := res_fin h
theorem fin_sub (h : |x - y| < Ω) : (fin x : XR Ω) - fin y = fin (x - y) := by
  change (res (x + -y) : XR Ω) = _
  rw [← sub_eq_add_neg, res_fin h]
theorem fin_mul (h : |x * y| < Ω) : (fin x : XR Ω) * fin y = fin (x * y) := res_fin h
theorem fin_div (h0 : y ≠ 0) (h : |x / y| < Ω) : (fin x : XR Ω) / fin y = fin (x / y) := by
  change (if y = 0 then scaled x pinf else res (x / y)) = _
  rw [if_neg h0, res_fin h]
theorem fin_pow {n : ℕ} (h0 : n ≠ 0) (h : |x ^ n| < Ω) : (fin x : XR Ω) ^ n = fin (x ^ n) := by
  change (if n = 0 then fin 1 else res (x ^ n)) = _
  rw [if_neg h0, res_fin h]
theorem fin_exp (h : exp x < Ω) : (ovf Ω).exp (fin x) = fin (exp x) :=
  res_fin (by rwa [abs_of_pos (exp_pos x)])
theorem fin_log (h : 0 < x) : (ovf Ω).log (fin x) = fin (log x) := if_pos h
theorem fin_power (h : 0 < x) (hy : y ≠ 0) (hb : x ^ y < Ω) :
    (ovf Ω).power (fin x) (fin y) = fin (x ^ y) := by
  change power (fin x) (fin y) = _
  simp only [power, if_neg hy, ext, if_pos (Or.inl h : 0 < x ∨ _)]
  exact res_fin (by rwa [abs_of_pos (rpow_pos_of_pos h y)])
theorem fin_max : (ovf Ω).maximum (fin x) (fin y) = fin (max x y) := rfl
theorem fin_clip {z : ℝ} : (ovf Ω).clip (fin x) (fin y) (fin z) = fin (min (max x y) z) := rfl
theorem fin_cos : (ovf Ω).cos (fin x) = fin (cos x) := rfl
theorem fin_sin : (ovf Ω).sin (fin x) = fin (sin x) := rfl
theorem fin_arctan2 : (ovf Ω).arctan2 (fin x) (fin y) = fin (atan2R x y) := rfl

variable (hΩ : (10 : ℝ) ^ 30 < Ω)

theorem temp_upper {h : ℝ} (hh : |h| ≤ 1000000) (dT : ℝ) : isaTemp h dT ≤ 6900 := by
  have := (shift_bounds dT).2
  obtain ⟨h1, h2⟩ := abs_le.1 hh
  unfold isaTemp
  split_ifs <;> linarith

theorem ratio_pow_le {h : ℝ} (hh : |h| ≤ 1000000) (dT : ℝ) :
    (isaTemp h dT / (288.15 + shift dT)) ^ (4.256848030018761 : ℝ) ≤ 100000000 := by
  have h0 := T0s_pos dT
  have ht := temp_pos h dT
  have hs := (shift_bounds dT).1
  have hr : isaTemp h dT / (288.15 + shift dT) ≤ 30 := by
    rw [div_le_iff₀ h0]
    have := temp_upper hh dT
    linarith
  calc (isaTemp h dT / (288.15 + shift dT)) ^ (4.256848030018761 : ℝ)
      ≤ 30 ^ (4.256848030018761 : ℝ) := rpow_le_rpow (div_pos ht h0).le hr (by norm_num)
    _ ≤ 30 ^ (5 : ℝ) := rpow_le_rpow_of_exponent_le (by norm_num) (by norm_num)
    _ ≤ _ := by
      rw [show (5 : ℝ) = ((5 : ℕ) : ℝ) by norm_num, rpow_natCast]
      norm_num

theorem density_le {h : ℝ} (hh : |h| ≤ 1000000) (dT : ℝ) : density np h dT ≤ 1000000000 := by
  rw [density_eq]
  have h1 := ratio_pow_le hh dT
  have h0 : 0 ≤ (isaTemp h dT / (288.15 + shift dT)) ^ (4.256848030018761 : ℝ) :=
    rpow_nonneg (div_pos (temp_pos h dT) (T0s_pos dT)).le _
  have h2 : exp (-(max 0 (h - 11000)) / 6341.552161) ≤ 1 := by
    rw [exp_le_one_iff]
    have := le_max_left 0 (h - 11000)
    exact div_nonpos_of_nonpos_of_nonneg (by linarith) (by norm_num)
  calc 1.225 * (isaTemp h dT / (288.15 + shift dT)) ^ (4.256848030018761 : ℝ) *
        exp (-(max 0 (h - 11000)) / 6341.552161) ≤ 1.225 * 100000000 * 1 := by gcongr
    _ ≤ _ := by norm_num

include hΩ in
theorem atmos_fin {h : ℝ} (hh : |h| ≤ 1000000) (dT : ℝ) : atmos (ovf Ω) (fin h) (fin dT) =
    (fin (pressure np h dT), fin (density np h dT), fin (temperature np h dT)) := by
  have hb : (10 : ℝ) ^ 15 < Ω := lt_trans (by norm_num) hΩ
  have hc := clip_shift dT
  have hT := temperature_eq h dT
  have hs := shift_bounds dT
  have h0 := T0s_pos dT
  have ht := temp_pos h dT
  have hu := temp_upper hh dT
  have hr := ratio_pow_le hh dT
  obtain ⟨h1, h2⟩ := abs_le.1 hh
  have hd := density_eq h dT
  have hdp := density_pos h dT
  have hdl := density_le hh dT
  have hm : max (288.15 + shift dT + -0.0065 * h) (216.65 + shift dT) = isaTemp h dT := by
    rw [← hT]
    simp only [temperature, atmos, hc]
    simp only [np, T0, beta]
  have hE : exp (-(max 0.0 (h - 11000.0)) / 6341.552161) ≤ 1 := by
    rw [exp_le_one_iff]
    refine div_nonpos_of_nonpos_of_nonneg ?_ (by norm_num)
    have := le_max_left 0.0 (h - 11000.0)
    norm_num at this ⊢
  have hq := div_pos ht h0
  have hp := rpow_pos_of_pos hq 4.256848030018761
  simp only [np, clipR] at hc
  have m1 : 0 ≤ max 0.0 (h - 11000.0) := le_max_of_le_left (by norm_num)
  have m2 : max 0.0 (h - 11000.0) ≤ 1000000 := max_le (by norm_num) (by linarith)
  unfold atmos
  simp only [fin_sci, fin_neg, T0, beta, rho0, R, fin_clip, hc]
  rw [fin_add (abs_lt.2 ⟨by linarith, by linarith⟩),
    fin_mul (abs_lt.2 ⟨by linarith, by linarith⟩),
    fin_add (abs_lt.2 ⟨by linarith, by linarith⟩),
    fin_add (abs_lt.2 ⟨by linarith, by linarith⟩), fin_max, hm,
    fin_div h0.ne' (by
      rw [abs_of_pos hq, div_lt_iff₀ h0]
      nlinarith),
    fin_power hq (by norm_num) (by linarith),
    fin_sub (abs_lt.2 ⟨by linarith, by linarith⟩), fin_max, fin_neg,
    fin_div (by norm_num) (by
      rw [abs_div, abs_neg, abs_of_nonneg m1, div_lt_iff₀ (by positivity), abs_of_pos (by norm_num)]
      linarith),
    fin_exp (by linarith),
    fin_mul (by rw [abs_of_pos (by positivity)]; linarith)]
  have hd' : 1.225 * (isaTemp h dT / (288.15 + shift dT)) ^ (4.256848030018761 : ℝ) *
      exp (-(max 0.0 (h - 11000.0)) / 6341.552161) = density np h dT := by
    rw [hd]; norm_num
  rw [fin_mul (by rw [hd', abs_of_pos hdp]; linarith), hd',
    fin_mul (by rw [abs_of_pos (by positivity)]; nlinarith),
    fin_mul (by
      rw [abs_of_pos (by positivity)]
      have : density np h dT * 287.05287 * isaTemp h dT ≤ 1000000000 * 287.05287 * 6900 := by gcongr
      linarith), pressure_eq, hT]

include hΩ in
theorem density_fin {h : ℝ} (hh : |h| ≤ 1000000) (dT : ℝ) :
    density (ovf Ω) (fin h) (fin dT) = fin (density np h dT) := by
  rw [density, atmos_fin hΩ hh]

variable {ac : Drag.Airframe ℝ} {pol : Drag.Polar ℝ} {mass tas alt vs acc dT : ℝ}

theorem abs_bound {a b A B : ℝ} (h1 : |a| ≤ A) (h2 : |b| ≤ B) : |a * b| ≤ A * B := by
  rw [abs_mul]
  exact mul_le_mul h1 h2 (abs_nonneg _) ((abs_nonneg _).trans h1)

theorem lift_le (hm : |mass| ≤ 10000000) : |Drag.lift mass tas vs| ≤ 100000000 := by
  unfold Drag.lift
  have h1 : |mass * 9.80665| ≤ 10000000 * 9.80665 :=
    abs_bound hm (by rw [abs_of_pos (by norm_num)])
  exact (abs_bound h1 (abs_cos_le_one _)).trans (by norm_num)

theorem alt_le (h : |alt| ≤ 1000000) : |alt * 0.3048| ≤ 1000000 :=
  (abs_bound h (B := 0.3048) (by rw [abs_of_pos (by norm_num)])).trans (by norm_num)

theorem dyn_le (hA : 0 ≤ ac.area ∧ ac.area ≤ 10000) (ht : |tas| ≤ 10000) (ha : |alt| ≤ 1000000) :
    0 ≤ 0.5 * density np (alt * 0.3048) dT * (tas * 0.514444) ^ 2 ∧
    0.5 * density np (alt * 0.3048) dT * (tas * 0.514444) ^ 2 ≤ 10 ^ 17 ∧
    Drag.qS ac tas alt dT ≤ 10 ^ 21 := by
  have h1 := density_pos (alt * 0.3048) dT
  have h2 := density_le (alt_le ha) dT
  have h3 : (tas * 0.514444) ^ 2 ≤ 100000000 := by
    rw [mul_pow, ← sq_abs]
    have : |tas| ^ 2 ≤ 10000 ^ 2 := pow_le_pow_left₀ (abs_nonneg _) ht 2
    norm_num at this ⊢
    linarith
  have h4 : 0.5 * density np (alt * 0.3048) dT * (tas * 0.514444) ^ 2 ≤ 10 ^ 17 := by
    calc _ ≤ 0.5 * 1000000000 * 100000000 := by gcongr
      _ ≤ (10 : ℝ) ^ 17 := by norm_num
  refine ⟨by positivity, h4, ?_⟩
  unfold Drag.qS
  refine max_le ?_ (by norm_num)
  calc _ ≤ (10 : ℝ) ^ 17 * 10000 := mul_le_mul h4 hA.2 hA.1 (by positivity)
    _ = _ := by norm_num

include hΩ in
theorem cl_fin (hA : 0 ≤ ac.area ∧ ac.area ≤ 10000) (hm : |mass| ≤ 10000000) (ht : |tas| ≤ 10000)
    (ha : |alt| ≤ 1000000) (hv : |vs| ≤ 1000000) :
    Drag.cl (ovf Ω) (Rec.airframe fin ac) (fin mass) (fin tas) (fin alt) (fin vs) (fin dT) =
      (fin (Drag.lift mass tas vs / Drag.qS ac tas alt dT), fin (Drag.qS ac tas alt dT)) := by
  obtain ⟨q0, q1, q2⟩ := dyn_le (dT := dT) hA ht ha
  have hb : (10 : ℝ) ^ 22 < Ω := lt_trans (by norm_num) hΩ
  have e0 : |tas * 0.514444| ≤ 10000 * 0.514444 := abs_bound ht (by rw [abs_of_pos (by norm_num)])
  have e1 : |vs * 0.00508| ≤ 1000000 * 0.00508 := abs_bound hv (by rw [abs_of_pos (by norm_num)])
  have e2 := alt_le ha
  have e3 : |mass * 9.80665| ≤ 10000000 * 9.80665 := abs_bound hm (by rw [abs_of_pos (by norm_num)])
  have e4 := lift_le (tas := tas) (vs := vs) hm
  have e5 := density_pos (alt * 0.3048) dT
  have e6 := density_le e2 dT
  have e7 : (tas * 0.514444) ^ 2 ≤ 100000000 := by
    rw [← sq_abs]
    calc |tas * 0.514444| ^ 2 ≤ (10000 * 0.514444) ^ 2 := pow_le_pow_left₀ (abs_nonneg _) e0 2
      _ ≤ _ := by norm_num
  have qp := Drag.qS_pos ac tas alt dT
  have ql : 0.001 ≤ Drag.qS ac tas alt dT := by
    refine le_trans ?_ (le_max_right _ _)
    norm_num
  unfold Drag.cl
  simp only [fin_sci, kts, ft, fpm, g0, Rec.airframe]
  rw [fin_mul (x := tas) (by linarith), fin_mul (x := alt) (by linarith), fin_mul (x := vs) (by linarith),
    fin_arctan2, density_fin hΩ e2, fin_cos, fin_mul (x := 0.5) (by
      rw [abs_of_pos (by positivity)]; linarith), fin_pow (by norm_num) (by
      rw [abs_of_nonneg (sq_nonneg _)]; linarith), fin_mul (x := 0.5 * _) (by
      rw [abs_of_nonneg q0]; linarith), fin_mul (x := mass) (by linarith),
    fin_mul (x := 0.5 * _ * _) (by
      rw [abs_of_nonneg (mul_nonneg q0 hA.1)]
      exact lt_of_le_of_lt ((le_max_left _ _).trans q2) (by linarith)),
    fin_mul (x := mass * _) (by
      have : |mass * 9.80665 * cos (atan2R (vs * 0.00508) (tas * 0.514444))| ≤ 100000000 := e4
      linarith), fin_max]
  change ((fin (Drag.lift mass tas vs) : XR Ω) / fin (Drag.qS ac tas alt dT),
    (fin (Drag.qS ac tas alt dT) : XR Ω)) = _
  rw [fin_div qp.ne' (by
    rw [abs_div, abs_of_pos qp, div_lt_iff₀ qp]
    nlinarith)]

include hΩ in
theorem clean_fin (h : Moderate ac.area pol.cd0 pol.k mass tas alt vs acc) :
    Drag.clean (ovf Ω) (Rec.airframe fin ac) (Rec.polar fin pol) false (fin mass) (fin tas)
      (fin alt) (fin vs) (fin dT) = fin (Drag.clean np ac pol false mass tas alt vs dT) ∧
    |Drag.clean np ac pol false mass tas alt vs dT| ≤ 10 ^ 23 := by
  obtain ⟨hA, h0, hk, hm, ht, ha, hv, -⟩ := h
  obtain ⟨-, -, q2⟩ := dyn_le (dT := dT) hA ht ha
  have qp := Drag.qS_pos ac tas alt dT
  have ql : 0.001 ≤ Drag.qS ac tas alt dT := by
    refine le_trans ?_ (le_max_right _ _)
    norm_num
  have e4 := lift_le (tas := tas) (vs := vs) hm
  have hb : (10 : ℝ) ^ 24 < Ω := lt_trans (by norm_num) hΩ
  have hcl : |Drag.lift mass tas vs / Drag.qS ac tas alt dT| ≤ 10 ^ 11 := by
    rw [abs_div, abs_of_pos qp, div_le_iff₀ qp]
    linarith
  have hcl2 : (Drag.lift mass tas vs / Drag.qS ac tas alt dT) ^ 2 ≤ 10 ^ 22 := by
    rw [← sq_abs]
    calc _ ≤ ((10 : ℝ) ^ 11) ^ 2 := pow_le_pow_left₀ (abs_nonneg _) hcl 2
      _ = _ := by norm_num
  have hkc : pol.k * (Drag.lift mass tas vs / Drag.qS ac tas alt dT) ^ 2 ≤ 10 * 10 ^ 22 :=
    mul_le_mul hk.2 hcl2 (sq_nonneg _) (by norm_num)
  have hkc0 : 0 ≤ pol.k * (Drag.lift mass tas vs / Drag.qS ac tas alt dT) ^ 2 :=
    mul_nonneg hk.1 (sq_nonneg _)
  have hd : Drag.clean np ac pol false mass tas alt vs dT =
      (pol.cd0 + pol.k * (Drag.lift mass tas vs / Drag.qS ac tas alt dT) ^ 2) *
        Drag.qS ac tas alt dT := by
    simp only [Drag.clean, Drag.calcDrag, Drag.cl_eq]
    norm_num
  have hD : |Drag.clean np ac pol false mass tas alt vs dT| ≤ 10 ^ 23 := by
    have hc : Drag.clean np ac pol false mass tas alt vs dT =
        pol.cd0 * Drag.qS ac tas alt dT + pol.k * Drag.lift mass tas vs ^ 2 / Drag.qS ac tas alt dT := by
      rw [hd]; field_simp
    have a1 : pol.cd0 * Drag.qS ac tas alt dT ≤ 10 * 10 ^ 21 := mul_le_mul h0.2 q2 qp.le (by norm_num)
    have a2 : Drag.lift mass tas vs ^ 2 ≤ 10 ^ 16 := by
      rw [← sq_abs]
      calc _ ≤ (100000000 : ℝ) ^ 2 := pow_le_pow_left₀ (abs_nonneg _) e4 2
        _ = _ := by norm_num
    have a3 : pol.k * Drag.lift mass tas vs ^ 2 ≤ 10 * 10 ^ 16 :=
      mul_le_mul hk.2 a2 (sq_nonneg _) (by norm_num)
    have a4 : pol.k * Drag.lift mass tas vs ^ 2 / Drag.qS ac tas alt dT ≤ 10 ^ 20 := by
      rw [div_le_iff₀ qp]
      linarith
    have a5 : 0 ≤ pol.k * Drag.lift mass tas vs ^ 2 / Drag.qS ac tas alt dT :=
      div_nonneg (mul_nonneg hk.1 (sq_nonneg _)) qp.le
    have a6 : 0 ≤ pol.cd0 * Drag.qS ac tas alt dT := mul_nonneg h0.1 qp.le
    rw [hc, abs_of_nonneg (by linarith)]
    linarith
  refine ⟨?_, hD⟩
  have e : (0.0 : ℝ) = 0 := by norm_num
  simp only [Drag.clean, Bool.false_eq_true, if_false, Rec.polar, fin_sci, Drag.calcDrag,
    cl_fin hΩ hA hm ht ha hv]
  rw [fin_add (by rw [e, add_zero, abs_of_nonneg h0.1]; linarith), e, add_zero,
    fin_pow (by norm_num) (by rw [abs_of_nonneg (sq_nonneg _)]; linarith),
    fin_mul (by rw [abs_of_nonneg hkc0]; linarith),
    fin_add (by rw [abs_of_nonneg (by linarith [h0.1])]; linarith [h0.2]),
    fin_mul (by rw [← hd]; linarith)]
  simp only [Drag.cl_eq]

include hΩ in
/-- Required thrust without overflow. -/
theorem enrouteThrust_fin (h : Moderate ac.area pol.cd0 pol.k mass tas alt vs acc) :
    Fuel.enrouteThrust (ovf Ω) (Rec.airframe fin ac) (Rec.polar fin pol) false (fin mass) (fin tas)
      (fin alt) (fin vs) (fin acc) (fin dT) =
      fin (Fuel.enrouteThrust np ac pol false mass tas alt vs acc dT) ∧
    |Fuel.enrouteThrust np ac pol false mass tas alt vs acc dT| < 10 ^ 24 := by
  obtain ⟨h1, h2⟩ := clean_fin (dT := dT) hΩ h
  obtain ⟨-, -, -, hm, ht, -, hv, ha⟩ := h
  have hb : (10 : ℝ) ^ 24 < Ω := lt_trans (by norm_num) hΩ
  have e0 : |tas * 0.514444| ≤ 10000 * 0.514444 := abs_bound ht (by rw [abs_of_pos (by norm_num)])
  have e1 : |vs * 0.00508| ≤ 1000000 * 0.00508 := abs_bound hv (by rw [abs_of_pos (by norm_num)])
  have e3 : |mass * 9.81| ≤ 10000000 * 9.81 := abs_bound hm (by rw [abs_of_pos (by norm_num)])
  have e4 := abs_bound e3 (abs_sin_le_one (atan2R (vs * 0.00508) (tas * 0.514444)))
  have e5 := abs_bound hm ha
  have e6 := abs_add_le (Drag.clean np ac pol false mass tas alt vs dT)
    (mass * 9.81 * sin (atan2R (vs * 0.00508) (tas * 0.514444)))
  have e7 := abs_add_le (Drag.clean np ac pol false mass tas alt vs dT +
    mass * 9.81 * sin (atan2R (vs * 0.00508) (tas * 0.514444))) (mass * acc)
  have hr : Fuel.enrouteThrust np ac pol false mass tas alt vs acc dT =
      Drag.clean np ac pol false mass tas alt vs dT +
        mass * 9.81 * sin (atan2R (vs * 0.00508) (tas * 0.514444)) + mass * acc := rfl
  refine ⟨?_, by rw [hr]; linarith⟩
  unfold Fuel.enrouteThrust
  simp only [h1, fin_sci, kts, fpm]
  rw [fin_mul (x := vs) (by linarith), fin_mul (x := tas) (by linarith), fin_arctan2, fin_sin,
    fin_mul (x := mass) (y := 9.81) (by linarith), fin_mul (x := mass * _) (by linarith),
    fin_add (by linarith), fin_mul (x := mass) (by linarith), fin_add (by linarith)]
  rfl

end Verif.XR
