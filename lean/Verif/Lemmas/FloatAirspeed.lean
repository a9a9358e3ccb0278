import Verif.Lemmas.FloatAero
import Verif.Lemmas.Airspeed
import Mathlib.Analysis.Convex.SpecificFunctions.Basic

/-!
# Rounding errors of the airspeed conversions
-/

namespace Verif
open Real

namespace Ap
variable {u n m : ℝ} {L K : ℕ} {a b c d : ℝ}

/-- Adding an exact one damps the relative error. -/
theorem one_add (h : Ap u n L a b) (hn : 0 ≤ n) (hu : 0 < u) (hs : n * u ≤ 1 / 250)
    (h1 : (2 : ℝ) ^ (-K : ℤ) ≤ 1 + b) (h2 : 1 + b ≤ (2 : ℝ) ^ (K : ℤ)) :
    Ap u (1.03 * n * (b / (1 + b))) K (1 + a) (1 + b) := by
  have hb := h.pos
  have := h.rel hn hu.le (hs.trans (by norm_num))
  have hd : b / (1 + b) ≤ 1 := by rw [div_le_one (by linarith)]; linarith
  have hd0 : 0 ≤ b / (1 + b) := by positivity
  refine (of_rel (k := 1.01 * n * (b / (1 + b))) ?_ (by linarith) (by positivity) hu ?_ h1 h2).mono
    hu.le ?_
  · rw [add_sub_add_left_eq_sub]
    refine this.trans (le_of_eq ?_)
    field_simp
  · calc 1.01 * n * (b / (1 + b)) * u = 1.01 * (n * u) * (b / (1 + b)) := by ring
      _ ≤ 1.01 * (1 / 250) * 1 := by gcongr
      _ ≤ _ := by norm_num
  · have : 0 ≤ n * (b / (1 + b)) := by positivity
    nlinarith

/-- Subtracting an exact one amplifies it. -/
theorem sub_one (h : Ap u n L a b) (hn : 0 ≤ n) (hu : 0 < u) (hb1 : 1 < b)
    (hm : n * (b / (b - 1)) ≤ m) (hs : m * u ≤ 1 / 250)
    (h1 : (2 : ℝ) ^ (-K : ℤ) ≤ b - 1) (h2 : b - 1 ≤ (2 : ℝ) ^ (K : ℤ)) :
    Ap u (1.03 * m) K (a - 1) (b - 1) := by
  have hb := h.pos
  have hd : 1 ≤ b / (b - 1) := by rw [le_div_iff₀ (by linarith)]; linarith
  have hnm : n ≤ m := le_trans (by nlinarith) hm
  have hm0 : 0 ≤ m := hn.trans hnm
  have := h.rel hn hu.le (le_trans (by nlinarith : n * u ≤ m * u) (hs.trans (by norm_num)))
  refine (of_rel (k := 1.01 * m) ?_ (by linarith) (by positivity) hu ?_ h1 h2).mono
    hu.le ?_
  · rw [sub_sub_sub_cancel_right]
    refine this.trans ?_
    have h3 : n * b ≤ m * (b - 1) := by
      have h4 : 0 < b - 1 := by linarith
      calc n * b = n * (b / (b - 1)) * (b - 1) := by field_simp
        _ ≤ _ := mul_le_mul_of_nonneg_right hm h4.le
    nlinarith
  · calc 1.01 * m * u = 1.01 * (m * u) := by ring
      _ ≤ 1.01 * (1 / 250) := by gcongr
      _ ≤ _ := by norm_num
  · nlinarith

end Ap

namespace Aero

variable {f : Format} (M : Machine f) (hw : f.Wide)

include hw in
theorem rnd_3_5 : M.rnd 3.5 = 3.5 := by
  refine M.rnd_of_repr ((le_trans ?_ hw.le_max)) ?_
  · rw [abs_of_pos (by norm_num)]; norm_num
  · have h1 : (2 : ℤ) ^ 24 ≤ 2 ^ f.prec := pow_le_pow_right₀ (by norm_num) hw.prec
    refine ⟨7, -1, ?_, ?_, ?_, by norm_num⟩
    · refine lt_of_lt_of_le ?_ h1; norm_num
    · have := hw.small; have := hw.prec; omega
    · have := hw.large; omega

include hw in
theorem rnd_1 : M.rnd 1.0 = 1 := by
  have := M.rnd_nat hw 1 (by norm_num)
  norm_num at this ⊢; exact this

include hw in
theorem rnd_2 : M.rnd 2.0 = 2 := by
  have := M.rnd_nat hw 2 (by norm_num)
  norm_num at this ⊢; exact this

include hw in
theorem rnd_7 : M.rnd 7.0 = 7 := by
  have := M.rnd_nat hw 7 (by norm_num)
  norm_num at this ⊢; exact this

include hw in
theorem rnd_p0 : M.rnd 101325.0 = 101325 := by
  have := M.rnd_nat hw 101325 (by norm_num)
  norm_num at this ⊢; exact this

include hw in
theorem mul_u {n : ℝ} (h : n ≤ 60000) : n * f.u ≤ 1 / 250 := by
  calc n * f.u ≤ 60000 * f.u := mul_le_mul_of_nonneg_right h f.u_pos.le
    _ ≤ _ := by have := hw.u_le'; linarith

/-- Excess of the compressible power over one. -/
theorem pow35_bounds {x : ℝ} (x0 : 0 < x) (x1 : x ≤ 1 / 2) :
    3.5 * x ≤ (1 + x) ^ (3.5 : ℝ) - 1 ∧ (1 + x) ^ (3.5 : ℝ) ≤ (1 + x) ^ (4 : ℕ) ∧
      (1 + x) ^ (4 : ℕ) ≤ 6 := by
  refine ⟨?_, ?_, ?_⟩
  · have := one_add_mul_self_le_rpow_one_add (s := x) (by linarith) (p := 3.5) (by norm_num)
    linarith
  · rw [← rpow_natCast]
    exact rpow_le_rpow_of_exponent_le (by linarith) (by norm_num)
  · calc (1 + x) ^ (4 : ℕ) ≤ (1 + 1 / 2) ^ 4 := by gcongr
      _ ≤ 6 := by norm_num

include hw in
/-- `(1 + x) ** 3.5 - 1`. -/
theorem fl_pow35 {x x' n B : ℝ} (h : Ap f.u n 20 x' x) (hn : 0 ≤ n) (x1 : x ≤ 1 / 2)
    (hB : (1 + x) ^ (3 : ℕ) ≤ B) (hs : 1.07 * n * B + 14 + 3.5 / x ≤ 60000) :
    Ap f.u (1.07 * n * B + 14 + 3.5 / x) 20 (M.rnd (M.power (M.rnd (1 + x')) 3.5 - 1))
      ((1 + x) ^ (3.5 : ℝ) - 1) := by
  have hu := f.u_pos
  have hu' := hw.u_le'
  have x0 := h.pos
  obtain ⟨w1, w2, w3⟩ := pow35_bounds x0 x1
  have hB1 : 1 ≤ B := le_trans (one_le_pow₀ (by linarith)) hB
  have hx0 : 0 < 3.5 / x := by positivity
  have hnB : n ≤ n * B := by nlinarith
  have hns : n * f.u ≤ 1 / 250 := mul_u hw (by linarith)
  have hd : x / (1 + x) ≤ 1 := by rw [div_le_one (by linarith)]; linarith
  have hd0 : 0 ≤ x / (1 + x) := by positivity
  have hnd : n * (x / (1 + x)) ≤ n := by nlinarith
  have h1 := (h.one_add (K := 1) hn hu hns (by norm_num; linarith) (by norm_num; linarith)).rnd M hw
    (by norm_num) (by linarith)
  have hl : |log (1 + x)| ≤ 1 := by
    have := log_le_sub_one_of_pos (by linarith : 0 < 1 + x)
    rw [abs_of_nonneg (log_nonneg (by linarith))]; linarith
  set w := (1 + x) ^ (3.5 : ℝ) with hwd
  have h2 := h1.rpow (K := 3) (x := 3.5) (y := 3.5) (l := 1) (q := 3.5) (k := 0)
    (by norm_num [abs_of_pos]) (by simp) hl hu.le le_rfl (by simp)
    (le_trans (by norm_num) (by linarith : (1 : ℝ) ≤ w)) ((w2.trans w3).trans (by norm_num))
  have h3 := h2.lib (M.power_acc _ _ h1.pos') hw (by norm_num) (by linarith)
  have hw1 : 1 < w := by nlinarith
  have q0 : 0 < w - 1 := by linarith
  -- the amplification
  have hr1 : w / (w - 1) ≤ 1 + 1 / (3.5 * x) := by
    rw [show w / (w - 1) = 1 + 1 / (w - 1) by field_simp; ring]
    have := one_div_le_one_div_of_le (by positivity) w1
    linarith
  have hr2 : x / (1 + x) * (w / (w - 1)) ≤ (1 + x) ^ 3 / 3.5 := by
    have e : (1 + x) ^ (4 : ℕ) = (1 + x) ^ 3 * (1 + x) := by ring
    rw [div_mul_div_comm, div_le_div_iff₀ (by positivity) (by norm_num)]
    calc x * w * 3.5 ≤ x * ((1 + x) ^ 3 * (1 + x)) * 3.5 := by
          rw [← e]; gcongr
      _ = (1 + x) ^ 3 * ((1 + x) * (3.5 * x)) := by ring
      _ ≤ _ := by gcongr
  have hr0 : 0 ≤ w / (w - 1) := by positivity
  have e35 : 3.5 / x = 12.25 * (1 / (3.5 * x)) := by field_simp; norm_num
  have hi0 : 0 < 1 / (3.5 * x) := by positivity
  have hamp : ((3.5 + 1 / 1000) * (1.03 * n * (x / (1 + x)) + 1.01) + 0 * 1 + 8.08) *
      (w / (w - 1)) ≤ 1.0305 * (n * B) + 11.63 * (1 + 1 / (3.5 * x)) := by
    have a1 : n * (x / (1 + x) * (w / (w - 1))) ≤ n * (B / 3.5) := by
      refine mul_le_mul_of_nonneg_left (hr2.trans ?_) hn
      gcongr
    have : ((3.5 + 1 / 1000) * (1.03 * n * (x / (1 + x)) + 1.01) + 0 * 1 + 8.08) * (w / (w - 1)) =
        3.60603 * (n * (x / (1 + x) * (w / (w - 1)))) + 11.61601 * (w / (w - 1)) := by ring
    rw [this]
    have : n * (B / 3.5) = n * B / 3.5 := by ring
    rw [this] at a1
    have hnB0 : 0 ≤ n * B := by positivity
    generalize n * (x / (1 + x) * (w / (w - 1))) = A at a1 ⊢
    generalize w / (w - 1) = W at hr1 ⊢
    generalize n * B = C at a1 hnB0 ⊢
    generalize 1 / (3.5 * x) = D at hr1 hi0 ⊢
    rw [le_div_iff₀ (by norm_num)] at a1
    clear * - a1 hr1 hnB0 hi0
    linarith
  have hnB0 : 0 ≤ n * B := by positivity
  have h4 := h3.sub_one (K := 20) (by positivity) hu hw1 hamp (mul_u hw (by linarith))
    (by
      have := h.mlo
      refine le_trans this (by nlinarith))
    (le_trans (by linarith : w - 1 ≤ 6) (by norm_num))
  exact (h4.rnd M hw (by norm_num) (by linarith)).mono hu.le (by linarith)

/-- `1 - 1 / w` against the argument of the power. -/
theorem pow27_bound {y : ℝ} (y0 : 0 < y) :
    y / (1 + y) * (2 / 7) * (1 + y) ^ (2 / 7 : ℝ) ≤ (1 + y) ^ (2 / 7 : ℝ) - 1 := by
  have h1 : (0 : ℝ) < 1 + y := by linarith
  have hb := one_add_mul_self_le_rpow_one_add (s := -(y / (1 + y))) (p := 1) (by
    rw [neg_le_neg_iff, div_le_one h1]; linarith) le_rfl
  -- concavity of the power at `1 / (1 + y)`
  have hc := rpow_one_add_le_one_add_mul_self (s := -(y / (1 + y))) (by
    rw [neg_le_neg_iff, div_le_one h1]; linarith) (p := 2 / 7) (by norm_num) (by norm_num)
  have e : 1 + -(y / (1 + y)) = (1 + y)⁻¹ := by field_simp; ring
  rw [e, inv_rpow h1.le] at hc
  have hp : 0 < (1 + y) ^ (2 / 7 : ℝ) := by positivity
  have := mul_le_mul_of_nonneg_right hc hp.le
  rw [inv_mul_cancel₀ hp.ne'] at this
  nlinarith

include hw in
/-- `(1 + y) ** (2 / 7) - 1`. -/
theorem fl_pow27 {y y' n : ℝ} (h : Ap f.u n 20 y' y) (hn : 0 ≤ n) (y1 : y ≤ 20)
    (hs : 1.07 * n + 55 + 31 / y ≤ 60000) :
    Ap f.u (1.07 * n + 55 + 31 / y) 30 (M.rnd (M.power (M.rnd (1 + y')) (M.rnd (2 / 7)) - 1))
      ((1 + y) ^ (2 / 7 : ℝ) - 1) := by
  have hu := f.u_pos
  have hu' := hw.u_le'
  have y0 := h.pos
  have hi0 : 0 < 31 / y := by positivity
  have hns : n * f.u ≤ 1 / 250 := mul_u hw (by linarith)
  have hd : y / (1 + y) ≤ 1 := by rw [div_le_one (by linarith)]; linarith
  have hd0 : 0 < y / (1 + y) := by positivity
  have hnd : n * (y / (1 + y)) ≤ n := by nlinarith
  have h1 := (h.one_add (K := 5) hn hu hns (by norm_num; linarith) (by norm_num; linarith)).rnd M hw
    (by norm_num) (by linarith)
  have hl0 : 0 ≤ log (1 + y) := log_nonneg (by linarith)
  have hly : log (1 + y) ≤ y := by
    have := log_le_sub_one_of_pos (by linarith : 0 < 1 + y); linarith
  have hl : |log (1 + y)| ≤ log (1 + y) := by rw [abs_of_nonneg hl0]
  have hp := pow27_bound y0
  set w := (1 + y) ^ (2 / 7 : ℝ) with hwd
  have w0 : 0 < w := by positivity
  have w21 : w ≤ 1 + y := by
    calc w ≤ (1 + y) ^ (1 : ℝ) := rpow_le_rpow_of_exponent_le (by linarith) (by norm_num)
      _ = _ := rpow_one _
  have hw1 : 1 < w := one_lt_rpow (by linarith) (by norm_num)
  have hlit := lit_abs M hw (c := 2 / 7) (B := 0.2858) (by norm_num [abs_of_pos]) (by norm_num)
  have h2 := h1.rpow (K := 5) (x := M.rnd (2 / 7)) (y := 2 / 7) (l := log (1 + y)) (q := 0.2858)
    (k := 0.2858 + 0.00001) (by norm_num [abs_of_pos]) hlit hl hu.le (by norm_num)
    (by nlinarith) (le_trans (by norm_num) hw1.le) (w21.trans (by norm_num; linarith))
  have h3 := h2.lib (M.power_acc _ _ h1.pos') hw (by norm_num) (by linarith)
  have q0 : 0 < w - 1 := by linarith
  have hr2 : y / (1 + y) * (w / (w - 1)) ≤ 3.5 := by
    rw [← mul_div_assoc, div_le_iff₀ q0]
    linarith
  have hr1 : w / (w - 1) ≤ 3.5 * (1 + 1 / y) := by
    have : w / (w - 1) = (y / (1 + y) * (w / (w - 1))) * (1 + 1 / y) := by field_simp; ring
    rw [this]
    exact mul_le_mul_of_nonneg_right hr2 (by positivity)
  have hr0 : 0 ≤ w / (w - 1) := by positivity
  have e31 : 31 / y = 31 * (1 / y) := by ring
  have hj0 : 0 < 1 / y := by positivity
  have hamp : ((0.2858 + 1 / 1000) * (1.03 * n * (y / (1 + y)) + 1.01) +
      (0.2858 + 0.00001) * log (1 + y) + 8.08) * (w / (w - 1)) ≤
      1.0341 * n + 29.3 * (1 + 1 / y) + 1.0004 * (1 + y) := by
    have a1 : n * (y / (1 + y) * (w / (w - 1))) ≤ n * 3.5 := mul_le_mul_of_nonneg_left hr2 hn
    have a2 : log (1 + y) * (w / (w - 1)) ≤ 3.5 * (1 + y) := by
      calc log (1 + y) * (w / (w - 1)) ≤ y * (3.5 * (1 + 1 / y)) :=
            mul_le_mul hly hr1 hr0 y0.le
        _ = _ := by field_simp; ring
    have : ((0.2858 + 1 / 1000) * (1.03 * n * (y / (1 + y)) + 1.01) +
      (0.2858 + 0.00001) * log (1 + y) + 8.08) * (w / (w - 1)) =
        0.295404 * (n * (y / (1 + y) * (w / (w - 1)))) + 0.28581 * (log (1 + y) * (w / (w - 1))) +
          8.369668 * (w / (w - 1)) := by ring
    rw [this]
    generalize n * (y / (1 + y) * (w / (w - 1))) = A at a1 ⊢
    generalize log (1 + y) * (w / (w - 1)) = B at a2 ⊢
    generalize w / (w - 1) = W at hr1 ⊢
    generalize 1 / y = D at hr1 hj0 ⊢
    linarith
  have h4 := h3.sub_one (K := 30) (by positivity) hu hw1 hamp (mul_u hw (by linarith))
    (by
      have h5 := h.mlo
      have : y / 100 ≤ w - 1 := by
        refine le_trans ?_ hp
        have : y / 21 ≤ y / (1 + y) := by gcongr; linarith
        nlinarith
      refine le_trans ?_ this
      have : (2 : ℝ) ^ (-(30 : ℕ) : ℤ) ≤ (2 : ℝ) ^ (-(20 : ℕ) : ℤ) / 100 := by norm_num
      refine this.trans ?_
      gcongr)
    (le_trans (by linarith : w - 1 ≤ 20) (by norm_num))
  exact (h4.rnd M hw (by norm_num) (by linarith)).mono hu.le (by linarith)

/-! ## Flight levels -/

theorem ratio_bounds {h : ℝ} (h1 : -1000 ≤ h) (dT : ℝ) :
    0.72 ≤ Spec.isaTemp h dT / (288.15 + Spec.shift dT) ∧
      Spec.isaTemp h dT / (288.15 + Spec.shift dT) ≤ 1.025 ∧ Spec.isaTemp h dT ≤ 310 ∧
      191.65 ≤ Spec.isaTemp h dT := by
  obtain ⟨d1, d2⟩ := shift_bounds dT
  have t0 := temp_lower h dT
  have hp := T0s_pos dT
  refine ⟨?_, ?_, ?_, by linarith⟩
  · rw [le_div_iff₀ hp]; linarith
  · rw [div_le_iff₀ hp]; unfold Spec.isaTemp; split_ifs <;> linarith
  · unfold Spec.isaTemp; split_ifs <;> linarith

theorem density_bounds {h : ℝ} (h1 : -1000 ≤ h) (h2 : h ≤ 15000) (dT : ℝ) :
    0.14 ≤ density np h dT ∧ density np h dT ≤ 1.4 := by
  obtain ⟨r1, r2, -⟩ := ratio_bounds h1 dT
  rw [density_eq]
  set r := Spec.isaTemp h dT / (288.15 + Spec.shift dT) with hr
  have r0 : 0 < r := by linarith
  have p1 : 0.225 ≤ r ^ (4.256848030018761 : ℝ) := by
    calc (0.225 : ℝ) ≤ 0.72 ^ (4.5 : ℝ) := by
          rw [show (4.5 : ℝ) = (9 : ℕ) * (1 / 2) by norm_num, rpow_mul (by norm_num),
            rpow_natCast, ← sqrt_eq_rpow]
          refine le_sqrt_of_sq_le (by norm_num)
      _ ≤ 0.72 ^ (4.256848030018761 : ℝ) :=
          rpow_le_rpow_of_exponent_ge (by norm_num) (by norm_num) (by norm_num)
      _ ≤ _ := rpow_le_rpow (by norm_num) r1 (by norm_num)
  have p2 : r ^ (4.256848030018761 : ℝ) ≤ 1.135 := by
    calc r ^ (4.256848030018761 : ℝ) ≤ 1.025 ^ (4.256848030018761 : ℝ) :=
          rpow_le_rpow r0.le r2 (by norm_num)
      _ ≤ 1.025 ^ ((5 : ℕ) : ℝ) := rpow_le_rpow_of_exponent_le (by norm_num) (by norm_num)
      _ ≤ _ := by rw [rpow_natCast]; norm_num
  set m := max 0 (h - 11000) with hm
  have m0 : 0 ≤ m := le_max_left _ _
  have m1 : m ≤ 4000 := max_le (by norm_num) (by linarith)
  have e1 : 0.517 ≤ exp (-m / 6341.552161) := by
    have : exp (-m / 6341.552161) = exp (-m / 6341.552161 / 8) ^ 8 := by
      rw [← exp_nat_mul]; congr 1; push_cast; ring
    rw [this]
    have h3 : 0.9211 ≤ exp (-m / 6341.552161 / 8) := by
      refine le_trans ?_ (add_one_le_exp _)
      have : -0.0789 ≤ -m / 6341.552161 / 8 := by
        rw [le_div_iff₀ (by norm_num), le_div_iff₀ (by norm_num)]; norm_num; linarith
      linarith
    calc (0.517 : ℝ) ≤ 0.9211 ^ 8 := by norm_num
      _ ≤ _ := by gcongr
  have e2 : exp (-m / 6341.552161) ≤ 1 :=
    exp_le_one_iff.2 (div_nonpos_of_nonpos_of_nonneg (by linarith) (by norm_num))
  constructor
  · calc (0.14 : ℝ) ≤ 1.225 * 0.225 * 0.517 := by norm_num
      _ ≤ _ := by gcongr
  · refine le_trans (b := 1.225 * 1.135 * 1) ?_ (by norm_num)
    gcongr

theorem pressure_bounds {h : ℝ} (h1 : -1000 ≤ h) (h2 : h ≤ 15000) (dT : ℝ) :
    7000 ≤ pressure np h dT ∧ pressure np h dT ≤ 125000 := by
  obtain ⟨-, -, t2, t1⟩ := ratio_bounds h1 dT
  obtain ⟨d1, d2⟩ := density_bounds h1 h2 dT
  rw [pressure_eq, temperature_eq]
  constructor
  · calc (7000 : ℝ) ≤ 0.14 * 287.05287 * 191.65 := by norm_num
      _ ≤ _ := by gcongr
  · refine le_trans (b := 1.4 * 287.05287 * 310) ?_ (by norm_num)
    gcongr

theorem range_mono {K L : ℕ} (h : K ≤ L) {b : ℝ} (h1 : (2 : ℝ) ^ (-K : ℤ) ≤ b)
    (h2 : b ≤ (2 : ℝ) ^ (K : ℤ)) : (2 : ℝ) ^ (-L : ℤ) ≤ b ∧ b ≤ (2 : ℝ) ^ (L : ℤ) :=
  ⟨le_trans (zpow_le_zpow_right₀ (by norm_num) (by omega)) h1,
   h2.trans (zpow_le_zpow_right₀ (by norm_num) (by omega))⟩

end Aero
end Verif
