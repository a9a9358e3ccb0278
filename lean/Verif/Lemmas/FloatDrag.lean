import Verif.Lemmas.FloatAirspeed
import Verif.Model.FloatRecords
import Verif.Spec.Rounding
import Mathlib.Analysis.SpecialFunctions.Trigonometric.Bounds

/-!
# Rounding errors of drag
-/

namespace Verif
open Real

theorem Ap.trans {u n m : ℝ} {L K : ℕ} {a b c : ℝ} (h : Ap u n L a b) (h' : Ap u m K b c) :
    Ap u (n + m) K a c := by
  refine ⟨?_, ?_, h'.mlo, h'.mhi⟩
  · rw [show -((n + m) * u) = -(m * u) + -(n * u) by ring, exp_add, ← mul_assoc]
    exact le_trans (mul_le_mul_of_nonneg_right h'.lo (exp_pos _).le) h.lo
  · rw [show (n + m) * u = m * u + n * u by ring, exp_add, ← mul_assoc]
    exact h.hi.trans (mul_le_mul_of_nonneg_right h'.hi (exp_pos _).le)

namespace Aero
open Verif.Spec

variable {f : Format} (M : Machine f) (hw : f.Wide)

theorem temp_lip (a b dT : ℝ) : |isaTemp a dT - isaTemp b dT| ≤ 0.0065 * |a - b| := by
  rw [← temperature_eq, ← temperature_eq]
  have e : ∀ h, temperature np h dT =
      max (288.15 + np.clip dT (-25.0) 15.0 + -0.0065 * h) (216.65 + np.clip dT (-25.0) 15.0) :=
    fun h => rfl
  rw [e, e]
  refine (abs_max_sub_max_le_abs _ _ _).trans (le_of_eq ?_)
  rw [add_sub_add_left_eq_sub, ← mul_sub, abs_mul, abs_neg, abs_of_pos (by norm_num)]

theorem temp_ge (h dT : ℝ) : 191.65 ≤ isaTemp h dT := by
  have := temp_lower h dT
  have := (shift_bounds dT).1
  linarith

/-- Logarithms of two numbers above a bound. -/
theorem log_lip {a b c : ℝ} (hc : 0 < c) (ha : c ≤ a) (hb : c ≤ b) :
    |log a - log b| ≤ |a - b| / c := by
  have one : ∀ {x y : ℝ}, c ≤ x → c ≤ y → log x - log y ≤ |x - y| / c := by
    intro x y hx hy
    have x0 : 0 < x := hc.trans_le hx
    have y0 : 0 < y := hc.trans_le hy
    rw [← log_div x0.ne' y0.ne']
    refine (log_le_sub_one_of_pos (div_pos x0 y0)).trans ?_
    have : x / y - 1 = (x - y) / y := by field_simp
    rw [this]
    calc (x - y) / y ≤ |x - y| / y := by gcongr; exact le_abs_self _
      _ ≤ |x - y| / c := by gcongr
  rw [abs_le]
  constructor
  · have := one hb ha
    rw [abs_sub_comm] at this
    linarith
  · exact one ha hb

theorem temp_log_lip (a b dT : ℝ) :
    |log (isaTemp a dT) - log (isaTemp b dT)| ≤ 0.000034 * |a - b| := by
  refine (log_lip (by norm_num) (temp_ge a dT) (temp_ge b dT)).trans ?_
  have := temp_lip a b dT
  rw [div_le_iff₀ (by norm_num)]
  nlinarith [abs_nonneg (a - b)]

/-- The logarithm of density changes by at most 0.000304 per metre. -/
theorem density_log_lip (a b dT : ℝ) :
    |log (density np a dT) - log (density np b dT)| ≤ 0.000304 * |a - b| := by
  have hp := T0s_pos dT
  have e : ∀ h, log (density np h dT) = log 1.225 + 4.256848030018761 *
      (log (isaTemp h dT) - log (288.15 + shift dT)) - max 0 (h - 11000) / 6341.552161 := by
    intro h
    have ht := temp_pos h dT
    rw [density_eq, log_mul (by positivity) (exp_pos _).ne', log_mul (by norm_num) (by positivity),
      log_rpow (div_pos ht hp), log_div ht.ne' hp.ne', log_exp]
    ring
  rw [e, e]
  have h1 := temp_log_lip a b dT
  have h2 : |max 0 (a - 11000) - max 0 (b - 11000)| ≤ |a - b| := by
    have := abs_max_sub_max_le_abs (a - 11000) (b - 11000) 0
    rw [max_comm 0, max_comm 0]
    simpa using this
  set m1 := max 0 (a - 11000)
  set m2 := max 0 (b - 11000)
  calc _ = |4.256848030018761 * (log (isaTemp a dT) - log (isaTemp b dT)) +
        -((m1 - m2) / 6341.552161)| := by congr 1; ring
    _ ≤ 4.256848030018761 * |log (isaTemp a dT) - log (isaTemp b dT)| +
        |m1 - m2| / 6341.552161 := by
        refine (abs_add_le _ _).trans (le_of_eq ?_)
        rw [abs_mul, abs_neg, abs_div, abs_of_pos (by norm_num : (0 : ℝ) < 4.256848030018761),
          abs_of_pos (by norm_num : (0 : ℝ) < 6341.552161)]
    _ ≤ 4.256848030018761 * (0.000034 * |a - b|) + |a - b| / 6341.552161 := by gcongr
    _ ≤ _ := by
        have := abs_nonneg (a - b)
        rw [div_eq_mul_inv]
        norm_num; nlinarith

include hw in
/-- Feet to metres. -/
theorem fl_feet {alt : ℝ} (h1 : -1000 ≤ alt * 0.3048) (h2 : alt * 0.3048 ≤ 15000) :
    |M.rnd (alt * M.rnd 0.3048) - alt * 0.3048| ≤ 30002 * f.u := by
  have hu := f.u_pos
  have hl := lit_abs M hw (c := 0.3048) (B := 0.3048) (by norm_num [abs_of_pos]) (by norm_num)
  have := M.rnd_abs hw (a := alt * M.rnd 0.3048) (b := alt * 0.3048) (c := 15001) (B := 15000)
    (B' := 15001) (by
      rw [← mul_sub, abs_mul]
      have : |alt| ≤ 49213 := abs_le.2 ⟨by linarith, by linarith⟩
      calc _ ≤ 49213 * ((0.3048 + 0.00001) * f.u) := mul_le_mul this hl (abs_nonneg _) (by norm_num)
        _ ≤ _ := by nlinarith) (abs_le.2 ⟨by linarith, by linarith⟩) (by norm_num) (by norm_num)
    (by norm_num)
  exact this.trans (le_of_eq (by ring))

include hw in
theorem feet_range {alt : ℝ} (h1 : -1000 ≤ alt * 0.3048) (h2 : alt * 0.3048 ≤ 15000) :
    |M.rnd (alt * M.rnd 0.3048)| ≤ 50000 := by
  have := fl_feet M hw h1 h2
  have hu := hw.u_le'
  obtain ⟨l, r⟩ := abs_le.1 this
  exact abs_le.2 ⟨by linarith, by linarith⟩

include hw in
/-- Density at an altitude in feet. -/
theorem fl_density_ft {alt : ℝ} (h1 : -1000 ≤ alt * 0.3048) (h2 : alt * 0.3048 ≤ 15000) (dT : ℝ) :
    Ap f.u 115.2 3 (density (flt M) ⟨M.rnd (alt * M.rnd 0.3048)⟩ ⟨dT⟩).val
      (density np (alt * 0.3048) dT) := by
  have hu := f.u_pos
  obtain ⟨d1, d2⟩ := density_bounds h1 h2 dT
  have a1 := fl_density M hw (feet_range M hw h1 h2) dT
  have a2 : Ap f.u 9.2 3 (density np (M.rnd (alt * M.rnd 0.3048)) dT)
      (density np (alt * 0.3048) dT) := by
    refine Ap.of_log (density_pos _ _) (density_pos _ _) ?_ (le_trans (by norm_num) d1)
      (d2.trans (by norm_num))
    refine (density_log_lip _ _ _).trans ?_
    have := fl_feet M hw h1 h2
    linarith
  exact (a1.trans a2).mono hu.le (by norm_num)

end Aero

namespace Drag
open Verif.Aero

variable {f : Format} (M : Machine f) (hw : f.Wide)

theorem arctan_lip (a b : ℝ) : |arctan a - arctan b| ≤ |a - b| := by
  have := Convex.norm_image_sub_le_of_norm_deriv_le (f := arctan) (C := 1) (s := Set.univ)
    (x := b) (y := a) (fun x _ => differentiable_arctan x) (fun x _ => by
      rw [Real.deriv_arctan, norm_eq_abs, abs_of_pos (by positivity)]
      rw [div_le_one (by positivity)]; nlinarith [sq_nonneg x]) convex_univ trivial trivial
  simpa using this

theorem cos_lip (a b : ℝ) : |cos a - cos b| ≤ |a - b| := by
  have := Convex.norm_image_sub_le_of_norm_deriv_le (f := cos) (C := 1) (s := Set.univ)
    (x := b) (y := a) (fun x _ => differentiable_cos x) (fun x _ => by
      rw [Real.deriv_cos', norm_eq_abs, abs_neg]; exact abs_sin_le_one x) convex_univ trivial trivial
  simpa using this

theorem sin_lip (a b : ℝ) : |sin a - sin b| ≤ |a - b| := by
  have := Convex.norm_image_sub_le_of_norm_deriv_le (f := sin) (C := 1) (s := Set.univ)
    (x := b) (y := a) (fun x _ => differentiable_sin x) (fun x _ => by
      rw [Real.deriv_sin, norm_eq_abs]; exact abs_cos_le_one x) convex_univ trivial trivial
  simpa using this

theorem atan2_pos {x : ℝ} (y : ℝ) (hx : 0 < x) : atan2R y x = arctan (y / x) := by
  unfold atan2R
  rw [Complex.arg_of_re_nonneg (x := ⟨x, y⟩) hx.le, arctan_eq_arcsin]
  congr 1
  show y / ‖(⟨x, y⟩ : ℂ)‖ = _
  rw [Complex.norm_def, Complex.normSq_mk]
  have : √(1 + (y / x) ^ 2) = √(x * x + y * y) / x := by
    rw [show 1 + (y / x) ^ 2 = (x * x + y * y) / x ^ 2 by field_simp,
      sqrt_div (add_nonneg (mul_self_nonneg _) (mul_self_nonneg _)), sqrt_sq hx.le]
  rw [this]
  field_simp

include hw in
/-- The flight-path angle, up to 45 degrees. -/
theorem fl_gamma {vs tas : ℝ} (t1 : 10 ≤ tas) (t2 : tas ≤ 2000)
    (hv : |vs * 0.00508| ≤ tas * 0.514444) :
    |M.arctan2 (M.rnd (vs * M.rnd 0.00508)) (M.rnd (tas * M.rnd 0.514444)) -
      atan2R (vs * 0.00508) (tas * 0.514444)| ≤ 12.3 * f.u := by
  have hu := f.u_pos
  have hu' := hw.u_le'
  have h1 := lit_abs M hw (c := 0.00508) (B := 0.00508) (by norm_num [abs_of_pos]) (by norm_num)
  have hk := Ap.lit M hw (L := 1) (b := 0.514444) (by norm_num) (by norm_num) (by norm_num)
  have ht := (Ap.exact (u := f.u) (L := 11) (b := tas) (le_trans (by norm_num) t1)
    (t2.trans (by norm_num))).mul hk |>.rnd M hw (by norm_num) (by norm_num)
  set t := tas * 0.514444 with htd
  set t' := M.rnd (tas * M.rnd 0.514444) with htd'
  set b := vs * 0.00508 with hb
  set b' := M.rnd (vs * M.rnd 0.00508) with hb'
  have t0 : 5 ≤ t := by rw [htd]; linarith
  have tr := ht.rel (by norm_num) hu.le (by nlinarith)
  have t'0 : 0.999 * t ≤ t' := by
    have := (abs_le.1 tr).1
    nlinarith
  have tp : 0 < t := by linarith
  have t'p : 0 < t' := by nlinarith
  -- the vertical rate
  have l1 : |M.rnd 0.00508 - 0.00508| ≤ f.u * 0.00508 := by
    have := M.rnd_rel hw (x := 0.00508) (by norm_num [abs_of_pos]) (by norm_num [abs_of_pos])
    rwa [abs_of_pos (by norm_num : (0 : ℝ) < 0.00508)] at this
  have l2 : |vs * M.rnd 0.00508 - b| ≤ f.u * t := by
    rw [hb, ← mul_sub, abs_mul]
    rw [abs_mul, abs_of_pos (by norm_num : (0 : ℝ) < 0.00508)] at hv
    calc _ ≤ |vs| * (f.u * 0.00508) := mul_le_mul_of_nonneg_left l1 (abs_nonneg _)
      _ = f.u * (|vs| * 0.00508) := by ring
      _ ≤ _ := mul_le_mul_of_nonneg_left hv hu.le
  have l3 : |vs * M.rnd 0.00508| ≤ 1.001 * t := by
    calc |vs * M.rnd 0.00508| = |(vs * M.rnd 0.00508 - b) + b| := by ring_nf
      _ ≤ |vs * M.rnd 0.00508 - b| + |b| := abs_add_le _ _
      _ ≤ f.u * t + t := add_le_add l2 hv
      _ ≤ _ := by nlinarith
  have t2000 : t ≤ 1030 := by rw [htd]; linarith
  have l4 : |b' - vs * M.rnd 0.00508| ≤ f.u * (1.001 * t) := by
    refine (M.rnd_err hw (l3.trans ?_)).trans (mul_le_mul_of_nonneg_left (max_le l3 ?_) hu.le)
    · have : (2000 : ℝ) ≤ 2 ^ (127 : ℤ) := by norm_num
      refine le_trans ?_ this; linarith
    · have : (2 : ℝ) ^ (-126 : ℤ) ≤ 1 := by norm_num
      exact this.trans (by linarith)
  have l5 : |b' - b| ≤ 2.002 * f.u * t := by
    calc |b' - b| = |(b' - vs * M.rnd 0.00508) + (vs * M.rnd 0.00508 - b)| := by ring_nf
      _ ≤ _ := abs_add_le _ _
      _ ≤ f.u * (1.001 * t) + f.u * t := add_le_add l4 l2
      _ ≤ _ := by nlinarith
  have q : |b' / t' - b / t| ≤ 4.07 * f.u := by
    have e : b' / t' - b / t = (b' - b) / t' + (b / t) * ((t - t') / t') := by
      field_simp; ring
    rw [e]
    have q1 : |(b' - b) / t'| ≤ 2.005 * f.u := by
      rw [abs_div, abs_of_pos t'p, div_le_iff₀ t'p]
      refine l5.trans ?_
      nlinarith
    have q2 : |(b / t) * ((t - t') / t')| ≤ 1 * (2.06 * f.u) := by
      rw [abs_mul]
      refine mul_le_mul ?_ ?_ (abs_nonneg _) (by norm_num)
      · rw [abs_div, abs_of_pos tp, div_le_one tp]; exact hv
      · rw [abs_div, abs_of_pos t'p, div_le_iff₀ t'p, abs_sub_comm]
        refine tr.trans ?_
        nlinarith
    refine (abs_add_le _ _).trans ?_
    linarith
  rw [atan2_pos _ tp]
  have acc := M.arctan2_acc b' t'
  rw [atan2_pos _ t'p] at acc
  have r1 : |b / t| ≤ 1 := by rw [abs_div, abs_of_pos tp, div_le_one tp]; exact hv
  have g := (arctan_lip (b' / t') (b / t)).trans q
  have gb : |arctan (b / t)| ≤ 1 := by
    have := arctan_lip (b / t) 0
    rw [arctan_zero, sub_zero, sub_zero] at this
    exact this.trans r1
  have := acc.abs_add hw g gb (B' := 8.1) (by norm_num) (by norm_num) (by norm_num)
  exact this.trans (mul_le_mul_of_nonneg_right (by norm_num) hu.le)

/-- The cosine is at least one half up to 45 degrees. -/
theorem cos_gamma {b t : ℝ} (t0 : 0 < t) (hv : |b| ≤ t) : 0.7 ≤ cos (atan2R b t) := by
  rw [atan2_pos _ t0, cos_arctan]
  have r1 : |b / t| ≤ 1 := by rw [abs_div, abs_of_pos t0, div_le_one t0]; exact hv
  have : (b / t) ^ 2 ≤ 1 := by
    rw [← sq_abs]; exact pow_le_one₀ (abs_nonneg _) r1
  rw [le_div_iff₀ (by positivity)]
  have : √(1 + (b / t) ^ 2) ≤ 1.4143 := sqrt_le_iff.2 ⟨by norm_num, by nlinarith⟩
  linarith

include hw in
theorem fl_cos_gamma {vs tas : ℝ} (t1 : 10 ≤ tas) (t2 : tas ≤ 2000)
    (hv : |vs * 0.00508| ≤ tas * 0.514444) :
    Ap f.u 26 1 (M.cos (M.arctan2 (M.rnd (vs * M.rnd 0.00508)) (M.rnd (tas * M.rnd 0.514444))))
      (cos (atan2R (vs * 0.00508) (tas * 0.514444))) := by
  have hu := f.u_pos
  have hg := fl_gamma M hw t1 t2 hv
  have hc := cos_gamma (by linarith) hv
  have h1 := (cos_lip _ _).trans hg
  have := Ap.of_abs hw (L := 1) (k := 17.6) h1 (by linarith) (by linarith) (by norm_num)
    (by norm_num) (le_trans (by norm_num) hc) ((cos_le_one _).trans (by norm_num))
  exact (this.lib (M.cos_acc _) hw (by norm_num) (by norm_num)).mono hu.le (by norm_num)


variable (ac : Airframe ℝ) (pol : Polar ℝ)

include hw in
/-- Dynamic pressure times area. -/
theorem fl_qS {mass tas alt vs : ℝ} (h : Spec.DragRange ac.area pol.cd0 pol.k mass tas alt vs) (dT : ℝ) :
    Ap f.u 133 50 (cl (flt M) (Fl.airframe M ac) ⟨mass⟩ ⟨tas⟩ ⟨alt⟩ ⟨vs⟩ ⟨dT⟩).2.val
      (cl np ac mass tas alt vs dT).2 := by
  have hu := f.u_pos
  have e : (cl (flt M) (Fl.airframe M ac) ⟨mass⟩ ⟨tas⟩ ⟨alt⟩ ⟨vs⟩ ⟨dT⟩).2.val =
      max (M.rnd (M.rnd (M.rnd (M.rnd 0.5 *
        (density (flt M) ⟨M.rnd (alt * M.rnd 0.3048)⟩ ⟨dT⟩).val) *
        M.powi (M.rnd (tas * M.rnd 0.514444)) 2) * ac.area)) (M.rnd 1e-3) := rfl
  have e' : (cl np ac mass tas alt vs dT).2 =
      max (0.5 * density np (alt * 0.3048) dT * (tas * 0.514444) ^ 2 * ac.area) 1e-3 := rfl
  rw [e, e']
  have h1 := fl_density_ft M hw h.hAlt.1 h.hAlt.2 dT
  have h2 := ((Ap.lit M hw (L := 1) (b := 0.5) (by norm_num) (by norm_num) (by norm_num)).mul
    h1).rnd M hw (by norm_num) (by norm_num)
  have hk := Ap.lit M hw (L := 1) (b := 0.514444) (by norm_num) (by norm_num) (by norm_num)
  have ht := (Ap.exact (u := f.u) (L := 11) (b := tas) (le_trans (by norm_num) h.hTas.1)
    (h.hTas.2.trans (by norm_num))).mul hk |>.rnd M hw (by norm_num) (by norm_num)
  have ht2 := (ht.npow 2).lib (M.powi_acc _ 2) hw (by norm_num) (by norm_num)
  have h3 := (h2.mul ht2).rnd M hw (by norm_num) (by norm_num)
  have h4 := (h3.mul (Ap.exact (u := f.u) (L := 11) (b := ac.area)
    (le_trans (by norm_num) h.hArea.1) (h.hArea.2.trans (by norm_num)))).rnd M hw (by norm_num)
    (by norm_num)
  obtain ⟨k1, k2⟩ := range_mono (by norm_num : 1 + 3 + 2 * (11 + 1) + 11 ≤ 50) h4.mlo h4.mhi
  have h5 := (h4.mono (m := 133) hu.le (by norm_num)).range k1 k2
  have h6 := (Ap.lit M hw (L := 50) (b := 1e-3) (by norm_num) (by norm_num) (by norm_num)).mono
    (m := 133) hu.le (by norm_num)
  exact h5.max h6

theorem qS_range {mass tas alt vs : ℝ} (h : Spec.DragRange ac.area pol.cd0 pol.k mass tas alt vs)
    (dT : ℝ) : 1.8 ≤ (cl np ac mass tas alt vs dT).2 ∧ (cl np ac mass tas alt vs dT).2 ≤ 1.5e9 := by
  have e' : (cl np ac mass tas alt vs dT).2 =
      max (0.5 * density np (alt * 0.3048) dT * (tas * 0.514444) ^ 2 * ac.area) 1e-3 := rfl
  obtain ⟨d1, d2⟩ := density_bounds h.hAlt.1 h.hAlt.2 dT
  obtain ⟨t1, t2⟩ := h.hTas
  obtain ⟨a1, a2⟩ := h.hArea
  rw [e']
  have t3 : 5.14 ≤ tas * 0.514444 := by linarith
  have t4 : tas * 0.514444 ≤ 1028.888 := by linarith
  constructor
  · refine le_max_of_le_left ?_
    calc (1.8 : ℝ) ≤ 0.5 * 0.14 * 5.14 ^ 2 * 1 := by norm_num
      _ ≤ _ := by gcongr
  · refine max_le ?_ (by norm_num)
    refine le_trans (b := 0.5 * 1.4 * 1028.888 ^ 2 * 2000) ?_ (by norm_num)
    gcongr

include hw in
/-- The lift coefficient. -/
theorem fl_cl {mass tas alt vs : ℝ} (h : Spec.DragRange ac.area pol.cd0 pol.k mass tas alt vs)
    (dT : ℝ) : Ap f.u 164.1 23
      (cl (flt M) (Fl.airframe M ac) ⟨mass⟩ ⟨tas⟩ ⟨alt⟩ ⟨vs⟩ ⟨dT⟩).1.val
      (cl np ac mass tas alt vs dT).1 := by
  have hu := f.u_pos
  have e : (cl (flt M) (Fl.airframe M ac) ⟨mass⟩ ⟨tas⟩ ⟨alt⟩ ⟨vs⟩ ⟨dT⟩).1.val =
      M.rnd (M.rnd (M.rnd (mass * M.rnd 9.80665) *
        M.cos (M.arctan2 (M.rnd (vs * M.rnd 0.00508)) (M.rnd (tas * M.rnd 0.514444)))) /
        (cl (flt M) (Fl.airframe M ac) ⟨mass⟩ ⟨tas⟩ ⟨alt⟩ ⟨vs⟩ ⟨dT⟩).2.val) := rfl
  have e' : (cl np ac mass tas alt vs dT).1 =
      mass * 9.80665 * cos (atan2R (vs * 0.00508) (tas * 0.514444)) /
        (cl np ac mass tas alt vs dT).2 := rfl
  rw [e, e']
  obtain ⟨m1, m2⟩ := h.hMass
  obtain ⟨q1, q2⟩ := qS_range ac pol h dT
  have hq := fl_qS M hw ac pol h dT
  have hc := fl_cos_gamma M hw h.hTas.1 h.hTas.2 h.hPath
  have c1 := cos_gamma (by have := h.hTas.1; linarith) h.hPath
  have c2 := cos_le_one (atan2R (vs * 0.00508) (tas * 0.514444))
  have hL := ((((Ap.exact (u := f.u) (L := 20) (b := mass) (le_trans (by norm_num) m1)
    (m2.trans (by norm_num))).mul (Ap.lit M hw (L := 4) (b := 9.80665) (by norm_num) (by norm_num)
    (by norm_num))).rnd M hw (by norm_num) (by norm_num)).mul hc).rnd M hw (by norm_num)
    (by norm_num)
  have h1 := (hL.div hq).rnd M hw (by norm_num) (by norm_num)
  set q := (cl np ac mass tas alt vs dT).2 with hqd
  set c := cos (atan2R (vs * 0.00508) (tas * 0.514444)) with hcd
  have q0 : 0 < q := by linarith
  refine (h1.mono (m := 164.1) hu.le (by norm_num)).range ?_ ?_
  · rw [le_div_iff₀ q0]
    calc (2 : ℝ) ^ (-(23 : ℕ) : ℤ) * q ≤ (2 : ℝ) ^ (-(23 : ℕ) : ℤ) * 1.5e9 := by gcongr
      _ ≤ 100 * 9.80665 * 0.7 := by norm_num
      _ ≤ _ := by gcongr
  · rw [div_le_iff₀ q0]
    calc mass * 9.80665 * c ≤ 1000000 * 9.80665 * 1 := by gcongr
      _ ≤ (2 : ℝ) ^ ((23 : ℕ) : ℤ) * 1.8 := by norm_num
      _ ≤ _ := by gcongr

include hw in
/-- Clean drag without wave drag. -/
theorem fl_clean {mass tas alt vs : ℝ} (h : Spec.DragRange ac.area pol.cd0 pol.k mass tas alt vs)
    (dT : ℝ) : Ap f.u 473 110
      (clean (flt M) (Fl.airframe M ac) (Fl.polar M pol) false ⟨mass⟩ ⟨tas⟩ ⟨alt⟩ ⟨vs⟩ ⟨dT⟩).val
      (clean np ac pol false mass tas alt vs dT) := by
  have hu := f.u_pos
  have e : (clean (flt M) (Fl.airframe M ac) (Fl.polar M pol) false ⟨mass⟩ ⟨tas⟩ ⟨alt⟩ ⟨vs⟩
      ⟨dT⟩).val = M.rnd (M.rnd (M.rnd (pol.cd0 + M.rnd 0.0) + M.rnd (pol.k *
        M.powi (cl (flt M) (Fl.airframe M ac) ⟨mass⟩ ⟨tas⟩ ⟨alt⟩ ⟨vs⟩ ⟨dT⟩).1.val 2)) *
        (cl (flt M) (Fl.airframe M ac) ⟨mass⟩ ⟨tas⟩ ⟨alt⟩ ⟨vs⟩ ⟨dT⟩).2.val) := rfl
  have e' : clean np ac pol false mass tas alt vs dT =
      (pol.cd0 + pol.k * (cl np ac mass tas alt vs dT).1 ^ 2) *
        (cl np ac mass tas alt vs dT).2 := by
    show (pol.cd0 + 0.0 + _) * _ = _
    norm_num
  have r0 : M.rnd 0.0 = 0 := by have := M.rnd_zero hw; norm_num at this ⊢; exact this
  rw [e, e', r0, add_zero]
  have hc := fl_cl M hw ac pol h dT
  have hq := fl_qS M hw ac pol h dT
  have h1 := (hc.npow 2).lib (M.powi_acc _ 2) hw (by norm_num) (by norm_num)
  have h2 := ((Ap.exact (u := f.u) (L := 10) (b := pol.k) (le_trans (by norm_num) h.hK.1)
    (h.hK.2.trans (by norm_num))).mul h1).rnd M hw (by norm_num) (by norm_num)
  have h3 := (Ap.exact (u := f.u) (L := 10) (b := pol.cd0) (le_trans (by norm_num) h.hCd0.1)
    (h.hCd0.2.trans (by norm_num))).rnd M hw (by norm_num) (by norm_num)
  obtain ⟨k1, k2⟩ := range_mono (by norm_num : 10 ≤ 10 + 2 * 23) h3.mlo h3.mhi
  have h4 := (((h3.range k1 k2).mono (m := 337.4) hu.le (by norm_num)).add
    (h2.mono (m := 337.4) hu.le (by norm_num))).rnd M hw (by norm_num) (by norm_num)
  have h5 := (h4.mul hq).rnd M hw (by norm_num) (by norm_num)
  obtain ⟨k3, k4⟩ := range_mono (by norm_num : 10 + 2 * 23 + 1 + 50 ≤ 110) h5.mlo h5.mhi
  exact (h5.mono hu.le (by norm_num)).range k3 k4

end Drag
end Verif
