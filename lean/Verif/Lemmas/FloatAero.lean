import Verif.Lemmas.Float
import Verif.Lemmas.Aero
import Mathlib.Analysis.Complex.ExponentialBounds

/-!
# Rounding errors of the atmosphere
-/

namespace Verif.Aero
open Verif.Spec Real

variable {f : Format} (M : Machine f) (hw : f.Wide)
include hw

theorem rnd_25 : M.rnd 25.0 = 25 := by
  have := M.rnd_nat hw 25 (by norm_num)
  norm_num at this ⊢; exact this

theorem rnd_15 : M.rnd 15.0 = 15 := by
  have := M.rnd_nat hw 15 (by norm_num)
  norm_num at this ⊢; exact this

theorem fl_clip (dT : ℝ) : ((flt M).clip ⟨dT⟩ (-25.0) 15.0).val = shift dT := by
  show min (max dT (-(M.rnd 25.0))) (M.rnd 15.0) = _
  rw [rnd_25 M hw, rnd_15 M hw, ← clip_shift]
  show _ = min (max dT (-25.0)) 15.0
  norm_num

/-- Absolute error of a literal. -/
theorem lit_abs {c B : ℝ} (hc : |c| ≤ B) (hB : B ≤ 10 ^ 11) : |M.rnd c - c| ≤ (B + 0.00001) * f.u := by
  have := M.rnd_abs hw (a := c) (b := c) (c := 0) (B := B) (B' := B + 0.00001) (by simp) hc
    (by norm_num) (by linarith) (by norm_num)
  rwa [zero_add] at this

/-- The sea-level temperature with offset. -/
theorem fl_T0s {d : ℝ} (d1 : -25 ≤ d) (d2 : d ≤ 15) :
    |M.rnd (M.rnd 288.15 + d) - (288.15 + d)| ≤ 592 * f.u := by
  have h1 := lit_abs M hw (c := 288.15) (B := 288.15) (by norm_num [abs_of_pos]) (by norm_num)
  have := M.rnd_abs hw (a := M.rnd 288.15 + d) (b := 288.15 + d) (c := 288.16) (B := 303.15)
    (B' := 303.16) (by
      rw [add_sub_add_right_eq_sub]
      exact h1.trans (mul_le_mul_of_nonneg_right (by norm_num) f.u_pos.le))
    (abs_le.2 ⟨by linarith, by linarith⟩) (by norm_num) (by norm_num) (by norm_num)
  exact this.trans (mul_le_mul_of_nonneg_right (by norm_num) f.u_pos.le)

theorem fl_Ttrop {d : ℝ} (d1 : -25 ≤ d) (d2 : d ≤ 15) :
    |M.rnd (M.rnd 216.65 + d) - (216.65 + d)| ≤ 449 * f.u := by
  have h1 := lit_abs M hw (c := 216.65) (B := 216.65) (by norm_num [abs_of_pos]) (by norm_num)
  have := M.rnd_abs hw (a := M.rnd 216.65 + d) (b := 216.65 + d) (c := 216.66) (B := 231.65)
    (B' := 231.66) (by
      rw [add_sub_add_right_eq_sub]
      exact h1.trans (mul_le_mul_of_nonneg_right (by norm_num) f.u_pos.le))
    (abs_le.2 ⟨by linarith, by linarith⟩) (by norm_num) (by norm_num) (by norm_num)
  exact this.trans (mul_le_mul_of_nonneg_right (by norm_num) f.u_pos.le)

theorem fl_lapse {h : ℝ} (hh : |h| ≤ 50000) :
    |M.rnd (-(M.rnd 0.0065) * h) - -0.0065 * h| ≤ 651 * f.u := by
  have hu := f.u_pos
  have h1 := lit_abs M hw (c := 0.0065) (B := 0.0065) (by norm_num [abs_of_pos]) (by norm_num)
  have := M.rnd_abs hw (a := -(M.rnd 0.0065) * h) (b := -0.0065 * h) (c := 325.6) (B := 325)
    (B' := 325.1) (by
      rw [← sub_mul, abs_mul, show -M.rnd 0.0065 - -0.0065 = -(M.rnd 0.0065 - 0.0065) by ring,
        abs_neg]
      calc _ ≤ (0.0065 + 0.00001) * f.u * 50000 := mul_le_mul h1 hh (abs_nonneg _) (by positivity)
        _ ≤ _ := by nlinarith)
    (by rw [abs_mul, abs_neg, abs_of_pos (by norm_num : (0 : ℝ) < 0.0065)]; linarith)
    (by norm_num) (by norm_num) (by norm_num)
  exact this.trans (mul_le_mul_of_nonneg_right (by norm_num) f.u_pos.le)

omit hw in
theorem max_abs {a b c d e : ℝ} (h1 : |a - b| ≤ e) (h2 : |c - d| ≤ e) :
    |max a c - max b d| ≤ e := (abs_max_sub_max_le_max a c b d).trans (max_le h1 h2)

theorem fl_temp_abs {h : ℝ} (hh : |h| ≤ 50000) (dT : ℝ) :
    |(temperature (flt M) ⟨h⟩ ⟨dT⟩).val - isaTemp h dT| ≤ 1873 * f.u := by
  have e : (temperature (flt M) ⟨h⟩ ⟨dT⟩).val =
      max (M.rnd (M.rnd (M.rnd 288.15 + shift dT) + M.rnd (-(M.rnd 0.0065) * h)))
        (M.rnd (M.rnd 216.65 + shift dT)) := by
    rw [← fl_clip M hw]; rfl
  have e' : isaTemp h dT = max ((288.15 + shift dT) + -0.0065 * h) (216.65 + shift dT) := by
    rw [← temperature_eq, ← clip_shift]; rfl
  obtain ⟨d1, d2⟩ := shift_bounds dT
  rw [e, e']
  have h1 := fl_T0s M hw d1 d2
  have h2 := fl_lapse M hw hh
  have h3 := fl_Ttrop M hw d1 d2
  obtain ⟨a1, a2⟩ := abs_le.1 hh
  refine max_abs ?_ (h3.trans (mul_le_mul_of_nonneg_right (by norm_num : (449 : ℝ) ≤ 1873) f.u_pos.le))
  have := M.rnd_abs hw (a := M.rnd (M.rnd 288.15 + shift dT) + M.rnd (-(M.rnd 0.0065) * h))
    (b := (288.15 + shift dT) + -0.0065 * h) (c := 592 + 651) (B := 628.15)
    (B' := 630) (by
      rw [add_sub_add_comm, add_mul]
      exact (abs_add_le _ _).trans (add_le_add h1 h2))
    (abs_le.2 ⟨by linarith, by linarith⟩) (by norm_num) (by norm_num) (by norm_num)
  exact this.trans (mul_le_mul_of_nonneg_right (by norm_num) f.u_pos.le)

omit hw in
theorem temp_range {h : ℝ} (hh : |h| ≤ 50000) (dT : ℝ) :
    191.65 ≤ isaTemp h dT ∧ isaTemp h dT ≤ 628.15 := by
  obtain ⟨a1, a2⟩ := abs_le.1 hh
  obtain ⟨d1, d2⟩ := shift_bounds dT
  have := temp_lower h dT
  refine ⟨by linarith, ?_⟩
  unfold isaTemp
  split_ifs <;> linarith

theorem fl_temp {h : ℝ} (hh : |h| ≤ 50000) (dT : ℝ) :
    Ap f.u 9.9 10 (temperature (flt M) ⟨h⟩ ⟨dT⟩).val (isaTemp h dT) := by
  obtain ⟨t1, t2⟩ := temp_range hh dT
  refine (Ap.of_abs hw (k := 9.8) (fl_temp_abs M hw hh dT) (by linarith) (by linarith)
    (by norm_num) (by norm_num) (le_trans (by norm_num) t1) (t2.trans (by norm_num))).mono
    f.u_pos.le (by norm_num)

theorem fl_T0s' (dT : ℝ) :
    Ap f.u 2.3 10 (M.rnd (M.rnd 288.15 + shift dT)) (288.15 + shift dT) := by
  obtain ⟨d1, d2⟩ := shift_bounds dT
  refine (Ap.of_abs hw (k := 2.25) (fl_T0s M hw d1 d2) (by linarith) (by linarith)
    (by norm_num) (by norm_num) (le_trans (by norm_num) (by linarith : (263 : ℝ) ≤ _))
    (le_trans (by linarith : _ ≤ (304 : ℝ)) (by norm_num))).mono f.u_pos.le (by norm_num)

theorem fl_ratio {h : ℝ} (hh : |h| ≤ 50000) (dT : ℝ) :
    Ap f.u 13.3 2 (M.rnd ((temperature (flt M) ⟨h⟩ ⟨dT⟩).val / M.rnd (M.rnd 288.15 + shift dT)))
      (isaTemp h dT / (288.15 + shift dT)) := by
  obtain ⟨t1, t2⟩ := temp_range hh dT
  obtain ⟨d1, d2⟩ := shift_bounds dT
  have := (((fl_temp M hw hh dT).div (fl_T0s' M hw dT)).rnd M hw (by norm_num)
    (by norm_num)).mono (m := 13.3) f.u_pos.le (by norm_num)
  refine this.range ?_ ?_
  · rw [le_div_iff₀ (by linarith)]; norm_num; linarith
  · rw [div_le_iff₀ (by linarith)]; norm_num; linarith

theorem fl_pow {h : ℝ} (hh : |h| ≤ 50000) (dT : ℝ) :
    Ap f.u 71 9 (M.power (M.rnd ((temperature (flt M) ⟨h⟩ ⟨dT⟩).val /
        M.rnd (M.rnd 288.15 + shift dT))) (M.rnd 4.256848030018761))
      ((isaTemp h dT / (288.15 + shift dT)) ^ (4.256848030018761 : ℝ)) := by
  have hr := fl_ratio M hw hh dT
  set b := isaTemp h dT / (288.15 + shift dT) with hb
  have hb0 := hr.pos
  have l1 : |log b| ≤ 1.4 := hr.log_le.trans (by
    have := log_two_lt_d9
    push_cast; linarith)
  have hl := abs_le.1 l1
  have hx := lit_abs M hw (c := 4.256848030018761) (B := 4.26) (by norm_num [abs_of_pos])
    (by norm_num)
  have lo : (2 : ℝ) ^ (-(9 : ℕ) : ℤ) ≤ b ^ (4.256848030018761 : ℝ) := by
    have h1 : (2 : ℝ) ^ (-(2 : ℕ) : ℤ) ≤ b := hr.mlo
    calc (2 : ℝ) ^ (-(9 : ℕ) : ℤ) = ((2 : ℝ) ^ (-2 : ℝ)) ^ (4.5 : ℝ) := by
          rw [← rpow_mul (by norm_num), ← rpow_intCast]; norm_num
      _ ≤ ((2 : ℝ) ^ (-2 : ℝ)) ^ (4.256848030018761 : ℝ) := by
          refine rpow_le_rpow_of_exponent_ge (by positivity) ?_ (by norm_num)
          exact rpow_le_one_of_one_le_of_nonpos (by norm_num) (by norm_num)
      _ ≤ _ := by
          refine rpow_le_rpow (by positivity) ?_ (by norm_num)
          rw [← rpow_intCast] at h1
          norm_num at h1 ⊢; exact h1
  have hi : b ^ (4.256848030018761 : ℝ) ≤ (2 : ℝ) ^ ((9 : ℕ) : ℤ) := by
    have h1 : b ≤ (2 : ℝ) ^ ((2 : ℕ) : ℤ) := hr.mhi
    calc b ^ (4.256848030018761 : ℝ) ≤ ((2 : ℝ) ^ (2 : ℝ)) ^ (4.256848030018761 : ℝ) := by
          refine rpow_le_rpow hb0.le ?_ (by norm_num)
          rw [← rpow_intCast] at h1
          norm_num at h1 ⊢; exact h1
      _ ≤ ((2 : ℝ) ^ (2 : ℝ)) ^ (4.5 : ℝ) :=
          rpow_le_rpow_of_exponent_le (one_le_rpow (by norm_num) (by norm_num)) (by norm_num)
      _ = _ := by rw [← rpow_mul (by norm_num), ← rpow_intCast]; norm_num
  have := hr.rpow (K := 9) (x := M.rnd 4.256848030018761) (y := 4.256848030018761) (l := 1.4)
    (q := 4.2569) (k := 4.26 + 0.00001) (by norm_num [abs_of_pos]) hx l1 f.u_pos.le (by norm_num)
    (by have := hw.u_le'; norm_num; linarith) lo hi
  have := this.lib (M.power_acc _ _ hr.pos') hw (by norm_num) (by norm_num)
  exact this.mono f.u_pos.le (by norm_num)

/-- The stratospheric factor. -/
theorem fl_strat {h : ℝ} (hh : |h| ≤ 50000) :
    Ap f.u 31 9 (M.exp (M.rnd (-max (M.rnd 0.0) (M.rnd (h - M.rnd 11000.0)) / M.rnd 6341.552161)))
      (exp (-max 0 (h - 11000) / 6341.552161)) := by
  have hu := f.u_pos
  obtain ⟨a1, a2⟩ := abs_le.1 hh
  have e0 : M.rnd 0.0 = 0 := by have := M.rnd_zero hw; norm_num at this ⊢; exact this
  have e1 : M.rnd 11000.0 = 11000 := by
    have := M.rnd_nat hw 11000 (by norm_num); norm_num at this ⊢; exact this
  rw [e0, e1]
  -- the height above the tropopause
  have hs : |M.rnd (h - 11000) - (h - 11000)| ≤ 61001 * f.u := by
    have := M.rnd_abs hw (a := h - 11000) (b := h - 11000) (c := 0) (B := 61000) (B' := 61001)
      (by simp) (abs_le.2 ⟨by linarith, by linarith⟩) (by norm_num) (by norm_num) (by norm_num)
    rwa [zero_add] at this
  have hm := max_abs (by simp; positivity : |(0 : ℝ) - 0| ≤ 61001 * f.u) hs
  set m' := max 0 (M.rnd (h - 11000)) with hm'
  set m := max 0 (h - 11000) with hmd
  have m0 : 0 ≤ m := le_max_left _ _
  have m1 : m ≤ 39000 := max_le (by norm_num) (by linarith)
  have hc := lit_abs M hw (c := 6341.552161) (B := 6341.552161) (by norm_num [abs_of_pos])
    (by norm_num)
  set c' := M.rnd 6341.552161 with hc'
  have hu' := hw.u_le'
  have hc1 : 6341 ≤ c' := by
    have := (abs_le.1 hc).1
    nlinarith
  have hc0 : 0 < c' := by linarith
  have hq : |-m' / c' - -m / 6341.552161| ≤ 15.78 * f.u := by
    have : -m' / c' - -m / 6341.552161 =
        -((m' - m) / c') + m * (c' - 6341.552161) / (c' * 6341.552161) := by field_simp; ring
    rw [this]
    refine (abs_add_le _ _).trans ?_
    have t1 : |-((m' - m) / c')| ≤ 61001 * f.u / 6341 := by
      rw [abs_neg, abs_div, abs_of_pos hc0]
      exact div_le_div₀ (by positivity) hm (by norm_num) hc1
    have t2 : |m * (c' - 6341.552161) / (c' * 6341.552161)| ≤
        39000 * ((6341.552161 + 0.00001) * f.u) / (6341 * 6341.552161) := by
      rw [abs_div, abs_mul, abs_of_nonneg m0, abs_of_pos (by positivity : 0 < c' * 6341.552161)]
      refine div_le_div₀ (by positivity) (mul_le_mul m1 hc (abs_nonneg _) (by norm_num))
        (by norm_num) (mul_le_mul_of_nonneg_right hc1 (by norm_num))
    refine (add_le_add t1 t2).trans ?_
    norm_num; nlinarith
  have hr := M.rnd_abs hw hq (B := 6.15) (B' := 6.2) (by
    rw [abs_div, abs_neg, abs_of_nonneg m0, abs_of_pos (by norm_num : (0 : ℝ) < 6341.552161),
      div_le_iff₀ (by norm_num)]
    norm_num; linarith) (by norm_num) (by norm_num) (by norm_num)
  have ye : -6.15 ≤ -m / 6341.552161 := by
    rw [le_div_iff₀ (by norm_num)]; norm_num; linarith
  have := Ap.exp (K := 9) (u := f.u) hr (by
    refine le_trans ?_ (exp_le_exp.2 ye)
    rw [← log_le_iff_le_exp (by positivity), log_zpow]
    have := log_two_gt_d9
    push_cast; linarith) (by
    refine le_trans (exp_le_one_iff.2 (div_nonpos_of_nonpos_of_nonneg (by linarith) (by norm_num)))
      (by norm_num))
  exact (this.lib (M.exp_acc _) hw (by norm_num) (by norm_num)).mono f.u_pos.le (by norm_num)

theorem fl_density {h : ℝ} (hh : |h| ≤ 50000) (dT : ℝ) :
    Ap f.u 106 20 (density (flt M) ⟨h⟩ ⟨dT⟩).val (density np h dT) := by
  have e : (density (flt M) ⟨h⟩ ⟨dT⟩).val =
      M.rnd (M.rnd (M.rnd 1.225 * M.power (M.rnd ((temperature (flt M) ⟨h⟩ ⟨dT⟩).val /
        M.rnd (M.rnd 288.15 + shift dT))) (M.rnd 4.256848030018761)) *
        M.exp (M.rnd (-max (M.rnd 0.0) (M.rnd (h - M.rnd 11000.0)) / M.rnd 6341.552161))) := by
    rw [← fl_clip M hw]; rfl
  rw [e, density_eq]
  have h1 := Ap.lit M hw (L := 1) (b := 1.225) (by norm_num) (by norm_num) (by norm_num)
  have h2 := (h1.mul (fl_pow M hw hh dT)).rnd M hw (by norm_num) (by norm_num)
  have h3 := (h2.mul (fl_strat M hw hh)).rnd M hw (by norm_num) (by norm_num)
  exact (h3.mono (m := 106) f.u_pos.le (by norm_num)).range
    (le_trans (zpow_le_zpow_right₀ (by norm_num) (by norm_num)) h3.mlo)
    (h3.mhi.trans (zpow_le_zpow_right₀ (by norm_num) (by norm_num)))

theorem fl_pressure {h : ℝ} (hh : |h| ≤ 50000) (dT : ℝ) :
    Ap f.u 119 40 (pressure (flt M) ⟨h⟩ ⟨dT⟩).val (pressure np h dT) := by
  have e : (pressure (flt M) ⟨h⟩ ⟨dT⟩).val =
      M.rnd (M.rnd ((density (flt M) ⟨h⟩ ⟨dT⟩).val * M.rnd 287.05287) *
        (temperature (flt M) ⟨h⟩ ⟨dT⟩).val) := rfl
  rw [e, pressure_eq, temperature_eq]
  have h1 := Ap.lit M hw (L := 9) (b := 287.05287) (by norm_num) (by norm_num) (by norm_num)
  have h2 := ((fl_density M hw hh dT).mul h1).rnd M hw (by norm_num) (by norm_num)
  have h3 := (h2.mul (fl_temp M hw hh dT)).rnd M hw (by norm_num) (by norm_num)
  exact (h3.mono (m := 119) f.u_pos.le (by norm_num)).range
    (le_trans (zpow_le_zpow_right₀ (by norm_num) (by norm_num)) h3.mlo)
    (h3.mhi.trans (zpow_le_zpow_right₀ (by norm_num) (by norm_num)))

theorem fl_vsound {h : ℝ} (hh : |h| ≤ 50000) (dT : ℝ) :
    Ap f.u 8.1 20 (vsound (flt M) ⟨h⟩ ⟨dT⟩).val (vsound np h dT) := by
  have e : (vsound (flt M) ⟨h⟩ ⟨dT⟩).val =
      M.rnd (√(M.rnd (M.rnd (M.rnd 1.40 * M.rnd 287.05287) *
        (temperature (flt M) ⟨h⟩ ⟨dT⟩).val))) := rfl
  have e' : vsound np h dT = √(1.40 * 287.05287 * isaTemp h dT) := by
    rw [← temperature_eq]; rfl
  rw [e, e']
  have h0 := Ap.lit M hw (L := 1) (b := 1.40) (by norm_num) (by norm_num) (by norm_num)
  have h1 := Ap.lit M hw (L := 9) (b := 287.05287) (by norm_num) (by norm_num) (by norm_num)
  have h2 := (h0.mul h1).rnd M hw (by norm_num) (by norm_num)
  have h3 := ((h2.mul (fl_temp M hw hh dT)).rnd M hw (by norm_num) (by norm_num)).sqrt.rnd M hw
    (by norm_num) (by norm_num)
  exact h3.mono (m := 8.1) f.u_pos.le (by norm_num)

end Verif.Aero
