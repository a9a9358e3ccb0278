import Verif.Model.Contrail
import Mathlib.Analysis.Complex.ExponentialBounds
import Mathlib.Analysis.Calculus.Deriv.MeanValue
import Mathlib.Analysis.Convex.Deriv

/-! Bounds used for the saturation pressures. -/
namespace Verif.Contrail
open Real

theorem log_le_tangent {c T : ℝ} (hc : 0 < c) (hT : 0 < T) : log T ≤ log c + T / c - 1 := by
  have := log_le_sub_one_of_pos (div_pos hT hc)
  rw [log_div hT.ne' hc.ne'] at this
  linarith

theorem tangent_le_log {c T : ℝ} (hc : 0 < c) (hT : 0 < T) : log c + 1 - c / T ≤ log T := by
  have := log_le_tangent hT hc
  linarith

/-- Logarithm of a number with prime factors 2, 3, 5. -/
theorem log_235 (a b c : ℕ) (d : ℕ) :
    log ((2 ^ a * 3 ^ b * 5 ^ c : ℝ) / 2 ^ d) = (a - d) * log 2 + b * log 3 + c * log 5 := by
  rw [log_div (by positivity) (by positivity), log_mul (by positivity) (by positivity),
    log_mul (by positivity) (by positivity), log_pow, log_pow, log_pow, log_pow]
  ring

theorem log_bounds : 0.6931471803 < log 2 ∧ log 2 < 0.6931471808 ∧ 1.0986122885 < log 3 ∧
    log 3 < 1.0986122888 ∧ 1.6094379123 < log 5 ∧ log 5 < 1.6094379126 :=
  ⟨log_two_gt_d9, log_two_lt_d9, log_three_gt_d9, log_three_lt_d9, log_five_gt_d9,
    log_five_lt_d9⟩

theorem log_200 : 5.2983173 < log 200 ∧ log 200 < 5.2983174 := by
  have h := log_235 3 0 2 0
  norm_num at h
  obtain ⟨_, _, _, _, _, _⟩ := log_bounds
  constructor <;> linarith

theorem log_180 : 5.1929568 < log 180 ∧ log 180 < 5.1929569 := by
  have h := log_235 2 2 1 0
  norm_num at h
  obtain ⟨_, _, _, _, _, _⟩ := log_bounds
  constructor <;> linarith

theorem log_120 : 4.7874917 < log 120 ∧ log 120 < 4.7874918 := by
  have h := log_235 3 1 1 0
  norm_num at h
  obtain ⟨_, _, _, _, _, _⟩ := log_bounds
  constructor <;> linarith

theorem log_150 : 5.0106352 < log 150 ∧ log 150 < 5.0106353 := by
  have h := log_235 1 1 2 0
  norm_num at h
  obtain ⟨_, _, _, _, _, _⟩ := log_bounds
  constructor <;> linarith

theorem log_250 : 5.5214609 < log 250 ∧ log 250 < 5.5214610 := by
  have h := log_235 1 0 3 0
  norm_num at h
  obtain ⟨_, _, _, _, _, _⟩ := log_bounds
  constructor <;> linarith

theorem log_273 : 5.6108444 < log 273.375 ∧ log 273.375 < 5.6108446 := by
  have h := log_235 0 7 0 3
  norm_num at h
  obtain ⟨_, _, _, _, _, _⟩ := log_bounds
  norm_num at *
  constructor <;> linarith

/-- The factor of `tanh` in the exponent of `satWater`. -/
noncomputable def B (T : ℝ) : ℝ := 53.878 - 1331.22 / T - 9.44523 * log T + 0.014025 * T

/-- Difference of the exponents without the `tanh` term. -/
noncomputable def A (T : ℝ) : ℝ := 45.292337 - 1039.955 / T - 7.74068 * log T + 0.00765032 * T

theorem hasDerivAt_poly (k a l d : ℝ) {T : ℝ} (hT : 0 < T) :
    HasDerivAt (fun x => k - a / x - l * log x + d * x) (a / T ^ 2 - l / T + d) T := by
  have h1 : HasDerivAt (fun x : ℝ => a / x) (-a / T ^ 2) T := by
    simpa using (hasDerivAt_const T a).fun_div (hasDerivAt_id' T) hT.ne'
  have h2 := (hasDerivAt_log hT.ne').const_mul l
  have h3 := (hasDerivAt_id T).const_mul d
  have := (((hasDerivAt_const T k).sub h1).sub h2).add h3
  convert! this using 1
  simp [neg_div]
  ring

theorem hasDerivAt_B {T : ℝ} (hT : 0 < T) :
    HasDerivAt B (1331.22 / T ^ 2 - 9.44523 / T + 0.014025) T :=
  hasDerivAt_poly 53.878 1331.22 9.44523 0.014025 hT

theorem B_mono : MonotoneOn B (Set.Ioc 0 200) := by
  refine monotoneOn_of_deriv_nonneg (convex_Ioc _ _)
    (fun x hx => (hasDerivAt_B hx.1).continuousAt.continuousWithinAt)
    (fun x hx => ?_) (fun x hx => ?_)
  · rw [interior_Ioc] at hx
    exact (hasDerivAt_B hx.1).differentiableAt.differentiableWithinAt
  · rw [interior_Ioc] at hx
    have h0 := hx.1
    rw [(hasDerivAt_B hx.1).deriv]
    have : 1331.22 / x ^ 2 - 9.44523 / x + 0.014025 =
        (1331.22 - 9.44523 * x + 0.014025 * x ^ 2) / x ^ 2 := by
      field_simp
    rw [this]
    refine div_nonneg ?_ (by positivity)
    nlinarith [mul_nonneg (sub_nonneg.2 hx.2.le) (sub_nonneg.2 hx.2.le), hx.2]

theorem B_anti : AntitoneOn B (Set.Icc 202 400) := by
  refine antitoneOn_of_deriv_nonpos (convex_Icc _ _)
    (fun x hx => (hasDerivAt_B (by linarith [hx.1])).continuousAt.continuousWithinAt)
    (fun x hx => ?_) (fun x hx => ?_)
  · rw [interior_Icc] at hx
    exact (hasDerivAt_B (by linarith [hx.1])).differentiableAt.differentiableWithinAt
  · rw [interior_Icc] at hx
    have h0 : 0 < x := by linarith [hx.1]
    rw [(hasDerivAt_B h0).deriv]
    have : 1331.22 / x ^ 2 - 9.44523 / x + 0.014025 =
        (1331.22 - 9.44523 * x + 0.014025 * x ^ 2) / x ^ 2 := by
      field_simp
    rw [this]
    refine div_nonpos_of_nonpos_of_nonneg ?_ (by positivity)
    nlinarith [mul_nonneg (sub_nonneg.2 hx.2.le) (sub_nonneg.2 hx.1.le)]

theorem B_near {T : ℝ} (h1 : 200 ≤ T) (h2 : T ≤ 202) : B T < 0 := by
  have hT : 0 < T := by linarith
  have h := tangent_le_log (c := 200) (by norm_num) hT
  have h3 := log_200.1
  have key : 53.878 - 1331.22 / T - 9.44523 * (6.2983173 - 200 / T) + 0.014025 * T < 0 := by
    have : 53.878 - 1331.22 / T - 9.44523 * (6.2983173 - 200 / T) + 0.014025 * T =
        (0.014025 * T ^ 2 - (9.44523 * 6.2983173 - 53.878) * T + (9.44523 * 200 - 1331.22)) / T := by
      field_simp
      ring
    rw [this]
    refine div_neg_of_neg_of_pos ?_ hT
    nlinarith
  unfold B
  linarith

theorem B_neg {T : ℝ} (hT : 0 < T) (hT2 : T ≤ 400) : B T < 0 := by
  rcases le_total T 200 with h | h
  · exact (B_mono ⟨hT, h⟩ ⟨by norm_num, le_rfl⟩ h).trans_lt (B_near le_rfl (by norm_num))
  rcases le_total T 202 with h' | h'
  · exact B_near h h'
  · exact (B_anti ⟨le_rfl, by norm_num⟩ ⟨h', hT2⟩ h').trans_lt (B_near (by norm_num) le_rfl)

theorem exponent_diff (T : ℝ) : (54.842763 - 6763.22 / T - 4.210 * log T + 0.000367 * T
    + tanh (0.0415 * (T - 218.8)) * B T) -
    (9.550426 - 5723.265 / T + 3.53068 * log T - 0.00728332 * T) =
    A T + tanh (0.0415 * (T - 218.8)) * B T := by
  unfold A
  ring

theorem tanh_le {x y : ℝ} (hy : exp (2 * x) ≤ y) : tanh x ≤ 1 - 2 / (y + 1) := by
  have h1 : tanh x = 1 - 2 / (exp (2 * x) + 1) := by
    rw [tanh_eq, show 2 * x = x + x by ring, exp_add, exp_neg]
    have := exp_pos x
    field_simp
    ring
  rw [h1]
  have := exp_pos (2 * x)
  gcongr

theorem le_tanh {x y : ℝ} (hy0 : 0 < y) (hy : y ≤ exp (2 * x)) : 1 - 2 / (y + 1) ≤ tanh x := by
  have h1 : tanh x = 1 - 2 / (exp (2 * x) + 1) := by
    rw [tanh_eq, show 2 * x = x + x by ring, exp_add, exp_neg]
    have := exp_pos x
    field_simp
    ring
  rw [h1]
  gcongr

theorem log_91 : 4.512232 < log 91.125 ∧ log 91.125 < 4.512233 := by
  have h := log_235 0 6 0 3
  norm_num at h
  obtain ⟨_, _, _, _, _, _⟩ := log_bounds
  norm_num at *
  constructor <;> linarith

/-- A concave rational function positive at two points is positive between. -/
theorem pos_between {k a e l u T : ℝ} (hT : 0 < T) (h1 : l ≤ T) (h2 : T ≤ u) (he : 0 ≤ e)
    (hl : 0 < k * l - a - e * l ^ 2) (hu : 0 < k * u - a - e * u ^ 2) : 0 < k - a / T - e * T := by
  have : k - a / T - e * T = (k * T - a - e * T ^ 2) / T := by
    field_simp
  rw [this]
  refine div_pos ?_ hT
  rcases h1.eq_or_lt with rfl | hlt
  · exact hl
  have hul : 0 < u - l := by linarith
  have : 0 < (u - l) * (k * T - a - e * T ^ 2) := by
    have e1 : (u - l) * (k * T - a - e * T ^ 2) =
        (u - T) * (k * l - a - e * l ^ 2) + (T - l) * (k * u - a - e * u ^ 2) +
          e * ((u - l) * ((u - T) * (T - l))) := by ring
    rw [e1]
    have := mul_nonneg (sub_nonneg.2 h2) hl.le
    have := mul_pos (sub_pos.2 hlt) hu
    have : 0 ≤ e * ((u - l) * ((u - T) * (T - l))) :=
      mul_nonneg he (mul_nonneg hul.le (mul_nonneg (by linarith) (by linarith)))
    linarith
  exact (mul_pos_iff_of_pos_left hul).1 this

theorem A_pos {T : ℝ} (h1 : 110 ≤ T) (h2 : T ≤ 218.8) : 0 < A T := by
  have hT : 0 < T := by linarith
  unfold A
  rcases le_total T 140 with h | h
  · have hl := log_le_tangent (c := 120) (by norm_num) hT
    have := log_120.2
    have := pos_between (k := 45.292337 - 7.74068 * 3.7874918) (a := 1039.955)
      (e := 7.74068 / 120 - 0.00765032) (l := 110) (u := 140) hT h1 h (by norm_num) (by norm_num)
      (by norm_num)
    linarith
  · have hl := log_le_tangent (c := 180) (by norm_num) hT
    have := log_180.2
    have := pos_between (k := 45.292337 - 7.74068 * 4.1929569) (a := 1039.955)
      (e := 7.74068 / 180 - 0.00765032) (l := 140) (u := 218.8) hT h h2 (by norm_num) (by norm_num)
      (by norm_num)
    linarith

theorem diff_pos {T : ℝ} (h1 : 110 ≤ T) (h2 : T ≤ 273.15) :
    0 < A T + tanh (0.0415 * (T - 218.8)) * B T := by
  have hT : 0 < T := by linarith
  have hB := B_neg hT (by linarith)
  rcases le_total T 218.8 with h | h
  · have hA := A_pos h1 h
    have ht : tanh (0.0415 * (T - 218.8)) ≤ 0 := by
      have := tanh_le (x := 0.0415 * (T - 218.8)) (y := 1)
        (exp_le_one_iff.2 (by linarith))
      norm_num at this ⊢
      exact this
    have := mul_nonneg_of_nonpos_of_nonpos ht hB.le
    linarith
  · have ht : tanh (0.0415 * (T - 218.8)) ≤ 1 - 2 / (91.125 + 1) := by
      apply tanh_le
      rw [← le_log_iff_exp_le (by norm_num)]
      have := log_91.1
      linarith
    have ht' : tanh (0.0415 * (T - 218.8)) ≤ 0.97829037 := ht.trans (by norm_num)
    have hm : 0.97829037 * B T ≤ tanh (0.0415 * (T - 218.8)) * B T :=
      mul_le_mul_of_nonpos_right ht' hB.le
    have hl := log_le_tangent (c := 273.375) (by norm_num) hT
    have := log_273.2
    have key := pos_between
      (k := 45.292337 + 0.97829037 * 53.878 - (7.74068 + 0.97829037 * 9.44523) * 4.6108446)
      (a := 1039.955 + 0.97829037 * 1331.22)
      (e := (7.74068 + 0.97829037 * 9.44523) / 273.375 - (0.00765032 + 0.97829037 * 0.014025))
      (l := 218.8) (u := 273.15) hT h h2 (by norm_num) (by norm_num) (by norm_num)
    refine lt_of_lt_of_le ?_ (add_le_add_right hm _)
    unfold A B
    have e1 : 1039.955 / T + 0.97829037 * (1331.22 / T) =
      (1039.955 + 0.97829037 * 1331.22) / T := by ring
    have e2 : T / 273.375 = T * (1 / 273.375) := by ring
    rw [e2] at hl
    have e3 : ((7.74068 + 0.97829037 * 9.44523) / 273.375 - (0.00765032 + 0.97829037 * 0.014025)) * T
       = (7.74068 + 0.97829037 * 9.44523) * (T * (1 / 273.375)) -
         (0.00765032 + 0.97829037 * 0.014025) * T := by ring
    rw [e3] at key
    linarith

/-- A convex rational function negative at two points is negative between. -/
theorem neg_between {k a e l u T : ℝ} (hT : 0 < T) (h1 : l ≤ T) (h2 : T ≤ u) (he : 0 ≤ e)
    (hl : k * l + a + e * l ^ 2 < 0) (hu : k * u + a + e * u ^ 2 < 0) : k + a / T + e * T < 0 := by
  have := pos_between (k := -k) (a := a) (e := e) hT h1 h2 he (by linarith) (by linarith)
  linarith

theorem diff_neg {T : ℝ} (h1 : 273.2 ≤ T) (h2 : T ≤ 332) :
    A T + tanh (0.0415 * (T - 218.8)) * B T < 0 := by
  have hT : 0 < T := by linarith
  have hB := B_neg hT (by linarith)
  have ht : 1 - 2 / (91.125 + 1) ≤ tanh (0.0415 * (T - 218.8)) := by
    refine le_tanh (by norm_num) ?_
    rw [← log_le_iff_le_exp (by norm_num)]
    have := log_91.2
    linarith
  have ht' : 0.97829 ≤ tanh (0.0415 * (T - 218.8)) := le_trans (by norm_num) ht
  have hm : tanh (0.0415 * (T - 218.8)) * B T ≤ 0.97829 * B T :=
    mul_le_mul_of_nonpos_right ht' hB.le
  have hl := tangent_le_log (c := 273.375) (by norm_num) hT
  have := log_273.1
  have key := neg_between
    (k := 45.292337 + 0.97829 * 53.878 - (7.74068 + 0.97829 * 9.44523) * 6.6108444)
    (a := (7.74068 + 0.97829 * 9.44523) * 273.375 - (1039.955 + 0.97829 * 1331.22))
    (e := 0.00765032 + 0.97829 * 0.014025)
    (l := 273.2) (u := 332) hT h1 h2 (by norm_num) (by norm_num) (by norm_num)
  refine lt_of_le_of_lt (add_le_add_right hm _) ?_
  unfold A B
  have e1 : ((7.74068 + 0.97829 * 9.44523) * 273.375 - (1039.955 + 0.97829 * 1331.22)) / T =
      (7.74068 + 0.97829 * 9.44523) * (273.375 / T) - 1039.955 / T - 0.97829 * (1331.22 / T) := by
    ring
  rw [e1] at key
  linarith

theorem B_lower {T : ℝ} (h1 : 123 ≤ T) (h2 : T ≤ 332) : B T * T ^ 2 ≥ -(0.8 * T ^ 2) - 8000 := by
  have hT : 0 < T := by linarith
  unfold B
  rcases le_total T 200 with h | h
  · have hl := log_le_tangent (c := 150) (by norm_num) hT
    have := log_150.2
    have := pos_between (k := 54.878 - 9.44523 * 4.0106353) (a := 1331.22)
      (e := 9.44523 / 150 - 0.014025) (l := 123) (u := 200) hT h1 h (by norm_num) (by norm_num)
      (by norm_num)
    have : -1 ≤ 53.878 - 1331.22 / T - 9.44523 * log T + 0.014025 * T := by linarith
    nlinarith
  · have hl := log_le_tangent (c := 250) (by norm_num) hT
    have := log_250.2
    have := pos_between (k := 54.678 - 9.44523 * 4.5214610) (a := 1331.22)
      (e := 9.44523 / 250 - 0.014025) (l := 200) (u := 332) hT h h2 (by norm_num) (by norm_num)
      (by norm_num)
    have : -0.8 ≤ 53.878 - 1331.22 / T - 9.44523 * log T + 0.014025 * T := by linarith
    nlinarith

theorem hasDerivAt_tanh (x : ℝ) : HasDerivAt tanh (1 - tanh x ^ 2) x := by
  have h := (hasDerivAt_sinh x).fun_div (hasDerivAt_cosh x) (cosh_pos x).ne'
  have e : (fun y => sinh y / cosh y) = tanh := by
    funext y
    rw [tanh_eq_sinh_div_cosh]
  rw [e] at h
  convert! h using 1
  rw [tanh_eq_sinh_div_cosh]
  have := (cosh_pos x).ne'
  field_simp

theorem tanh_sq_le (x : ℝ) : -1 ≤ tanh x ∧ tanh x ≤ 1 :=
  ⟨(neg_one_lt_tanh x).le, (tanh_lt_one x).le⟩

/-- Exponent of `satWater`. -/
noncomputable def W (T : ℝ) : ℝ := 54.842763 - 6763.22 / T - 4.210 * log T + 0.000367 * T
    + tanh (0.0415 * (T - 218.8)) * B T

theorem hasDerivAt_W {T : ℝ} (hT : 0 < T) :
    HasDerivAt W (6763.22 / T ^ 2 - 4.210 / T + 0.000367 +
      ((1 - tanh (0.0415 * (T - 218.8)) ^ 2) * 0.0415 * B T +
        tanh (0.0415 * (T - 218.8)) * (1331.22 / T ^ 2 - 9.44523 / T + 0.014025))) T := by
  have h1 : HasDerivAt (fun x : ℝ => 0.0415 * (x - 218.8)) 0.0415 T := by
    simpa using ((hasDerivAt_id' T).sub_const 218.8).const_mul 0.0415
  have h2 := (hasDerivAt_tanh (0.0415 * (T - 218.8))).comp T h1
  exact (hasDerivAt_poly 54.842763 6763.22 4.210 0.000367 hT).add (h2.mul (hasDerivAt_B hT))

theorem W_strictMono : StrictMonoOn W (Set.Icc 123 332) := by
  refine strictMonoOn_of_deriv_pos (convex_Icc _ _)
    (fun x hx => (hasDerivAt_W (by linarith [hx.1])).continuousAt.continuousWithinAt)
    (fun x hx => ?_)
  rw [interior_Icc] at hx
  have hT : 0 < x := by linarith [hx.1]
  rw [(hasDerivAt_W hT).deriv]
  obtain ⟨t1, t2⟩ := tanh_sq_le (0.0415 * (x - 218.8))
  generalize tanh (0.0415 * (x - 218.8)) = t at t1 t2
  have hB := B_lower hx.1.le hx.2.le
  have hBn := B_neg hT (by linarith [hx.2])
  have e : 6763.22 / x ^ 2 - 4.210 / x + 0.000367 +
      ((1 - t ^ 2) * 0.0415 * B x + t * (1331.22 / x ^ 2 - 9.44523 / x + 0.014025)) =
      (6763.22 - 4.210 * x + 0.000367 * x ^ 2 + (1 - t ^ 2) * (0.0415 * (B x * x ^ 2)) +
        t * (1331.22 - 9.44523 * x + 0.014025 * x ^ 2)) / x ^ 2 := by
    field_simp
    ring
  rw [e]
  refine div_pos ?_ (by positivity)
  have hq : |1331.22 - 9.44523 * x + 0.014025 * x ^ 2| ≤ 400 := by
    rw [abs_le]
    constructor
    · nlinarith [sq_nonneg (x - 336)]
    · nlinarith [mul_nonneg (sub_nonneg.2 hx.1.le) (sub_nonneg.2 hx.2.le)]
  have hq2 : -400 ≤ t * (1331.22 - 9.44523 * x + 0.014025 * x ^ 2) := by
    have : |t * (1331.22 - 9.44523 * x + 0.014025 * x ^ 2)| ≤ 1 * 400 := by
      rw [abs_mul]
      exact mul_le_mul (abs_le.2 ⟨t1, t2⟩) hq (abs_nonneg _) (by norm_num)
    have := neg_le_of_abs_le this
    linarith
  have hB2 : 0.0415 * (B x * x ^ 2) ≤ (1 - t ^ 2) * (0.0415 * (B x * x ^ 2)) := by
    have : B x * x ^ 2 ≤ 0 := mul_nonpos_of_nonpos_of_nonneg hBn.le (sq_nonneg x)
    nlinarith [sq_nonneg t]
  nlinarith [hx.1, hx.2]

theorem satWater_eq (T : ℝ) : satWater T = exp (W T) := rfl

/-- Exponent of `satIce`. -/
noncomputable def I (T : ℝ) : ℝ := 9.550426 - 5723.265 / T + 3.53068 * log T - 0.00728332 * T

theorem satIce_eq (T : ℝ) : satIce T = exp (I T) := rfl

/-- Derivative of the exponent of `satIce`. -/
noncomputable def I' (T : ℝ) : ℝ := 5723.265 / T ^ 2 + 3.53068 / T - 0.00728332

theorem hasDerivAt_I {T : ℝ} (hT : 0 < T) : HasDerivAt I (I' T) T := by
  have h := hasDerivAt_poly 9.550426 5723.265 (-3.53068) (-0.00728332) hT
  have e : (fun x : ℝ => 9.550426 - 5723.265 / x - -3.53068 * log x + -0.00728332 * x) = I := by
    funext x
    unfold I
    ring
  rw [e] at h
  convert! h using 1
  unfold I'
  ring

theorem I'_pos {T : ℝ} (hT : 0 < T) (h : T ≤ 1161) : 0 < I' T := by
  have : I' T = (5723.265 + 3.53068 * T - 0.00728332 * T ^ 2) / T ^ 2 := by
    unfold I'
    field_simp
  rw [this]
  refine div_pos ?_ (by positivity)
  nlinarith

theorem I_strictMono : StrictMonoOn I (Set.Ioc 0 1161) := by
  refine strictMonoOn_of_deriv_pos (convex_Ioc _ _)
    (fun x hx => (hasDerivAt_I hx.1).continuousAt.continuousWithinAt)
    (fun x hx => ?_)
  rw [interior_Ioc] at hx
  rw [(hasDerivAt_I hx.1).deriv]
  exact I'_pos hx.1 hx.2.le

theorem hasDerivAt_I' {T : ℝ} (hT : 0 < T) :
    HasDerivAt I' (-2 * 5723.265 / T ^ 3 - 3.53068 / T ^ 2) T := by
  have h1 : HasDerivAt (fun x : ℝ => 5723.265 / x ^ 2) (-2 * 5723.265 / T ^ 3) T := by
    have := (hasDerivAt_const T (5723.265:ℝ)).fun_div (hasDerivAt_pow 2 T) (by positivity)
    convert! this using 1
    field_simp
    ring
  have h2 : HasDerivAt (fun x : ℝ => 3.53068 / x) (-3.53068 / T ^ 2) T := by
    simpa using (hasDerivAt_const T (3.53068:ℝ)).fun_div (hasDerivAt_id' T) hT.ne'
  have := (h1.add h2).sub_const 0.00728332
  convert! this using 1
  ring

theorem hasDerivAt_satIce {T : ℝ} (hT : 0 < T) : HasDerivAt satIce (satIce T * I' T) T := by
  have := (hasDerivAt_I hT).exp
  exact this

/-- The ice saturation curve is convex. -/
theorem satIce_convex : ConvexOn ℝ (Set.Icc 100 400) satIce := by
  have hd : ∀ x ∈ Set.Icc (100:ℝ) 400, HasDerivAt satIce (satIce x * I' x) x :=
    fun x hx => hasDerivAt_satIce (by linarith [hx.1])
  have hd2 : ∀ x ∈ Set.Icc (100:ℝ) 400, HasDerivAt (fun x => satIce x * I' x)
      (satIce x * I' x * I' x + satIce x * (-2 * 5723.265 / x ^ 3 - 3.53068 / x ^ 2)) x :=
    fun x hx => (hd x hx).mul (hasDerivAt_I' (by linarith [hx.1]))
  have hmono : MonotoneOn (fun x => satIce x * I' x) (Set.Icc 100 400) := by
    refine monotoneOn_of_deriv_nonneg (convex_Icc _ _)
      (fun x hx => (hd2 x hx).continuousAt.continuousWithinAt)
      (fun x hx => (hd2 x (interior_subset hx)).differentiableAt.differentiableWithinAt)
      (fun x hx => ?_)
    have hx' := interior_subset hx
    rw [(hd2 x hx').deriv]
    have hT : 0 < x := by linarith [hx'.1]
    have hp : 0 < satIce x := exp_pos _
    have e : satIce x * I' x * I' x + satIce x * (-2 * 5723.265 / x ^ 3 - 3.53068 / x ^ 2) =
        satIce x * ((5723.265 + 3.53068 * x - 0.00728332 * x ^ 2) ^ 2 -
          2 * 5723.265 * x - 3.53068 * x ^ 2) / x ^ 4 := by
      unfold I'
      field_simp
      ring
    rw [e]
    refine div_nonneg (mul_nonneg hp.le ?_) (by positivity)
    have h1 : 5000 ≤ 5723.265 + 3.53068 * x - 0.00728332 * x ^ 2 := by nlinarith [hx'.1, hx'.2]
    nlinarith [hx'.1, hx'.2]
  refine MonotoneOn.convexOn_of_deriv (convex_Icc _ _)
    (fun x hx => (hd x hx).continuousAt.continuousWithinAt)
    (fun x hx => (hd x (interior_subset hx)).differentiableAt.differentiableWithinAt) ?_
  intro x hx y hy hxy
  rw [(hd x (interior_subset hx)).deriv, (hd y (interior_subset hy)).deriv]
  exact hmono (interior_subset hx) (interior_subset hy) hxy

end Verif.Contrail
