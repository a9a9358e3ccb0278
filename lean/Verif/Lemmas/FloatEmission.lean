import Verif.Lemmas.FloatThrust
import Verif.Lemmas.Emission

/-!
# Emissions in floating point
-/

namespace Verif
open Real

variable {f : Format} (M : Machine f) (hw : f.Wide)

include hw in
/-- A power with a literal exponent. -/
theorem Ap.power {n a b y : ℝ} {L : ℕ} (h : Ap f.u n L a b) (k : ℕ) (y0 : 0 < y) (hy : y ≤ k)
    (hk : k ≤ 10) (hL : L * k ≤ 100) (hn : n ≤ 1000) :
    Ap f.u ((y + 1 / 1000) * n + (y + 0.00001) * (L * 0.7) + 8.08) (L * k) (M.power a (M.rnd y))
      (b ^ y) := by
  have hu := f.u_pos
  have hu' := hw.u_le'
  have k10 : (k : ℝ) ≤ 10 := by exact_mod_cast hk
  have L100 : (L : ℝ) * k ≤ 100 := by exact_mod_cast hL
  have L0 : (0 : ℝ) ≤ L := Nat.cast_nonneg L
  have hl : |log b| ≤ L * 0.7 := h.log_le.trans (by
    have := log_two_lt_d9
    gcongr
    linarith)
  have b0 := h.pos
  have lo : (2 : ℝ) ^ (-(L * k : ℕ) : ℤ) ≤ b ^ y := by
    have : ((2 : ℝ) ^ (-L : ℤ)) ^ y ≤ b ^ y := rpow_le_rpow (by positivity) h.mlo y0.le
    refine le_trans ?_ this
    rw [← rpow_intCast, ← rpow_intCast, ← rpow_mul (by norm_num)]
    refine rpow_le_rpow_of_exponent_le (by norm_num) ?_
    push_cast
    nlinarith
  have hi : b ^ y ≤ (2 : ℝ) ^ ((L * k : ℕ) : ℤ) := by
    have : b ^ y ≤ ((2 : ℝ) ^ (L : ℤ)) ^ y := rpow_le_rpow b0.le h.mhi y0.le
    refine this.trans ?_
    rw [← rpow_intCast, ← rpow_intCast, ← rpow_mul (by norm_num)]
    refine rpow_le_rpow_of_exponent_le (by norm_num) ?_
    push_cast
    nlinarith
  have hr := h.rpow (x := M.rnd y) (q := y) (k := y + 0.00001) (abs_of_pos y0).le
    (Aero.lit_abs M hw (B := y) (abs_of_pos y0).le (by norm_num; linarith)) hl hu.le (by linarith)
    (by nlinarith) lo hi
  have n0 : 0 ≤ n * f.u := (abs_nonneg _).trans h.log_err
  have n0' : 0 ≤ n := nonneg_of_mul_nonneg_left n0 hu
  refine hr.lib (M.power_acc _ _ h.pos') hw (by omega) ?_
  have l70 : (L : ℝ) * 0.7 * (y + 0.00001) ≤ 1000 := by
    have : (L : ℝ) ≤ 100 := by
      by_cases hk0 : k = 0
      · rw [hk0] at hy; norm_num at hy; linarith
      · have : L ≤ 100 := le_trans (Nat.le_mul_of_pos_right L (Nat.pos_of_ne_zero hk0)) hL
        exact_mod_cast this
    nlinarith
  nlinarith

namespace Aero
open Verif.Spec

include hw in
/-- Temperature at an altitude in feet. -/
theorem fl_temp_ft {alt : ℝ} (h1 : -1000 ≤ alt * 0.3048) (h2 : alt * 0.3048 ≤ 15000) (dT : ℝ) :
    Ap f.u 11 10 (temperature (flt M) ⟨M.rnd (alt * M.rnd 0.3048)⟩ ⟨dT⟩).val
      (isaTemp (alt * 0.3048) dT) := by
  have hu := f.u_pos
  have a1 := fl_temp M hw (feet_range M hw h1 h2) dT
  obtain ⟨t1, t2⟩ := temp_range (h := alt * 0.3048) (abs_le.2 ⟨by linarith, by linarith⟩) dT
  have a2 : Ap f.u 1.1 10 (isaTemp (M.rnd (alt * M.rnd 0.3048)) dT)
      (isaTemp (alt * 0.3048) dT) := by
    refine Ap.of_log (temp_pos _ _) (temp_pos _ _) ?_ (le_trans (by norm_num) t1)
      (t2.trans (by norm_num))
    refine (temp_log_lip _ _ _).trans ?_
    have := fl_feet M hw h1 h2
    linarith
  exact (a1.trans a2).mono hu.le (by norm_num)

include hw in
/-- Speed of sound at an altitude in feet. -/
theorem fl_vsound_ft {alt : ℝ} (h1 : -1000 ≤ alt * 0.3048) (h2 : alt * 0.3048 ≤ 15000) (dT : ℝ) :
    Ap f.u 8.7 9 (vsound (flt M) ⟨M.rnd (alt * M.rnd 0.3048)⟩ ⟨dT⟩).val
      (vsound np (alt * 0.3048) dT) ∧ 277 ≤ vsound np (alt * 0.3048) dT := by
  have hu := f.u_pos
  have e' : ∀ h, vsound np h dT = √(1.40 * 287.05287 * isaTemp h dT) := fun h => by
    rw [← temperature_eq]; rfl
  have a1 := fl_vsound M hw (feet_range M hw h1 h2) dT
  have t1 := temp_ge (alt * 0.3048) dT
  have t2 := (temp_range (h := alt * 0.3048) (abs_le.2 ⟨by linarith, by linarith⟩) dT).2
  have s1 : 277 ≤ vsound np (alt * 0.3048) dT := by
    rw [e']; refine le_sqrt_of_sq_le ?_; nlinarith
  have s2 : vsound np (alt * 0.3048) dT ≤ 512 := by
    rw [e', sqrt_le_left (by norm_num)]; nlinarith
  have a2 : Ap f.u 0.6 9 (vsound np (M.rnd (alt * M.rnd 0.3048)) dT)
      (vsound np (alt * 0.3048) dT) := by
    refine Ap.of_log a1.pos (by linarith) ?_ (le_trans (by norm_num) s1)
      (s2.trans (by norm_num))
    have l : ∀ h, log (vsound np h dT) = (log (1.40 * 287.05287) + log (isaTemp h dT)) / 2 := by
      intro h
      have := temp_pos h dT
      rw [e', log_sqrt (by positivity), log_mul (by norm_num) this.ne']
    rw [l, l]
    have l2 := temp_log_lip (M.rnd (alt * M.rnd 0.3048)) (alt * 0.3048) dT
    have l3 := fl_feet M hw h1 h2
    generalize M.rnd (alt * M.rnd 0.3048) = z at *
    obtain ⟨q1, q2⟩ := abs_le.1 l2
    exact abs_le.2 ⟨by linarith, by linarith⟩
  exact ⟨(a1.trans a2).mono hu.le (by norm_num), s1⟩

end Aero

namespace Emission
open Verif.Aero Verif.Spec

include hw

/-- Sea-level fuel flow and conversion ratio. -/
theorem fl_fl2sl (e : Params ℝ) (hN1 : 1 ≤ e.number) (hN2 : e.number ≤ 10) {ffac tas alt : ℝ}
    (f1 : 1 / 10000 ≤ ffac) (f2 : ffac ≤ 100) (t1 : 0 ≤ tas) (t2 : tas ≤ 600)
    (h1 : -1000 ≤ alt * 0.3048) (h2 : alt * 0.3048 ≤ 15000) (dT : ℝ) :
    Ap f.u 270 50 (fl2sl (flt M) (Fl.emission M e) ⟨ffac⟩ ⟨tas⟩ ⟨alt⟩ ⟨dT⟩).1.val
      (fl2sl np e ffac tas alt dT).1 ∧
    Ap f.u 250 30 (fl2sl (flt M) (Fl.emission M e) ⟨ffac⟩ ⟨tas⟩ ⟨alt⟩ ⟨dT⟩).2.val
      (fl2sl np e ffac tas alt dT).2 := by
  have hu := f.u_pos
  have l := Thrust.fl_lit M hw
  -- Mach number and total-temperature factor
  obtain ⟨a0, a1⟩ := fl_vsound_ft M hw h1 h2 dT
  have v1 := ((Ab.exact (f := f) (B := 600) (b := tas) (abs_le.2 ⟨by linarith, t2⟩)).mul hw
    (l 0.514444 (by norm_num) (by norm_num))).rnd M hw (c' := 618) (by norm_num)
    (by norm_num) (by norm_num)
  have a2 := Ab.of_ap hw (B := 0.003611) (c := 0.032) a0.inv (by norm_num) (by norm_num)
    (by
      rw [inv_le_comm₀ (by linarith) (by norm_num)]
      exact le_trans (by norm_num) a1) (by norm_num)
  have m := (v1.mul hw a2).le (B' := 1.12) (by
    rw [abs_mul]
    refine le_trans (mul_le_mul v1.bound a2.bound (abs_nonneg _) (by norm_num)) (by norm_num))
    |>.rnd M hw (c' := 13.3) (by norm_num) (by norm_num) (by norm_num)
  set v := tas * 0.514444 * (vsound np (alt * 0.3048) dT)⁻¹ with hv
  set v' := M.rnd (M.rnd (tas * M.rnd 0.514444) *
    (vsound (flt M) ⟨M.rnd (alt * M.rnd 0.3048)⟩ ⟨dT⟩).val⁻¹) with hv'
  have m2 := (m.mul hw m).lib hw (z := M.powi v' 2)
    (by rw [← pow_two]; exact M.powi_acc v' 2) (c' := 40) (by norm_num) (by norm_num)
    (by norm_num)
  have b0 := ((l 0.2 (by norm_num) (by norm_num)).mul hw m2).rnd M hw (c' := 8.6) (by norm_num)
    (by norm_num) (by norm_num)
  have b1 := b0.bound
  have b2 : 0 ≤ 0.2 * (v * v) := by positivity
  rw [abs_of_nonneg b2] at b1
  have e1 : 1 ≤ exp (0.2 * (v * v)) := one_le_exp b2
  have e2 : exp (0.2 * (v * v)) ≤ 2 := by
    calc exp (0.2 * (v * v)) ≤ exp 0.5 := exp_le_exp.2 (b1.trans (by norm_num))
      _ ≤ 2 := by
        have := exp_one_lt_d9
        have h : exp 0.5 * exp 0.5 = exp 1 := by rw [← exp_add]; norm_num
        nlinarith [exp_pos 0.5]
  have beta := (Ap.exp (K := 1) b0.err (le_trans (by norm_num) e1) (e2.trans (by norm_num))).lib
    (M.exp_acc _) hw (by norm_num) (by norm_num)
  -- temperature and pressure ratios
  obtain ⟨-, -, t4, t3⟩ := ratio_bounds h1 dT
  have th := ((((fl_temp_ft M hw h1 h2 dT).div (Ap.lit M hw (L := 9) (b := 288.15) (by norm_num)
    (by norm_num) (by norm_num))).rnd M hw (by norm_num) (by norm_num)).range (K := 1)
      (by rw [le_div_iff₀ (by norm_num)]; norm_num; linarith)
      (by rw [div_le_iff₀ (by norm_num)]; norm_num; linarith)).div beta |>.rnd M hw (by norm_num)
    (by norm_num)
  have ax : Ab f 0 49213 alt alt := .exact (abs_le.2 ⟨by linarith, by linarith⟩)
  have x0 := (((l 0.0019812 (by norm_num) (by norm_num)).mul hw ax).rnd M hw (c' := 200)
    (by norm_num) (by norm_num) (by norm_num)).mul hw
    (Ab.of_ap hw (B := 0.003471) (c := 0.00355) (Ap.lit M hw (L := 9) (b := 288.15) (by norm_num)
      (by norm_num) (by norm_num)).inv (by norm_num) (by norm_num) (by norm_num) (by norm_num))
    |>.rnd M hw (c' := 1.4) (by norm_num) (by norm_num) (by norm_num)
  have x1 := ((Ab.exact (f := f) (B := 1) (b := 1) (by norm_num)).sub x0).rnd M hw (c' := 2.8)
    (by norm_num) (by norm_num) (by norm_num)
  have y1 : 0.66 ≤ 1 - 0.0019812 * alt * (288.15 : ℝ)⁻¹ := by
    rw [← div_eq_mul_inv, le_sub_comm, div_le_iff₀ (by norm_num)]; norm_num; linarith
  have y2 : 1 - 0.0019812 * alt * (288.15 : ℝ)⁻¹ ≤ 2 := by
    rw [← div_eq_mul_inv, sub_le_comm, le_div_iff₀ (by norm_num)]; norm_num; linarith
  have x2 := Ap.of_abs hw (L := 1) (k := 4.3) x1.err (by linarith) (by linarith) (by norm_num)
    (by norm_num) (by norm_num; linarith) (by norm_num; linarith)
  have x3 := x2.power M hw 6 (y := 5.255876) (by norm_num) (by norm_num) (by norm_num) (by norm_num)
    (by norm_num)
  have x4 := beta.power M hw 4 (y := 3.5) (by norm_num) (by norm_num) (by norm_num) (by norm_num)
    (by norm_num)
  have de := (x3.div x4).rnd M hw (by norm_num) (by norm_num)
  have r1 := th.power M hw 4 (y := 3.3) (by norm_num) (by norm_num) (by norm_num) (by norm_num)
    (by norm_num)
  have r2 := de.power M hw 2 (y := 1.02) (by norm_num) (by norm_num) (by norm_num) (by norm_num)
    (by norm_num)
  have ra := (r1.div r2).rnd M hw (by norm_num) (by norm_num)
  have s1 := th.power M hw 4 (y := 3.8) (by norm_num) (by norm_num) (by norm_num) (by norm_num)
    (by norm_num)
  have ff := (((((Ap.exact (u := f.u) (L := 14) (b := ffac) (le_trans (by norm_num) f1)
    (f2.trans (by norm_num))).div (Ap.exact (u := f.u) (L := 4) (b := e.number)
      (le_trans (by norm_num) hN1) (hN2.trans (by norm_num)))).rnd M hw (by norm_num)
      (by norm_num)).mul s1).rnd M hw (by norm_num) (by norm_num)).div de |>.rnd M hw (by norm_num)
      (by norm_num) |>.mul beta |>.rnd M hw (by norm_num) (by norm_num)
  have ev1 : (fl2sl (flt M) (Fl.emission M e) ⟨ffac⟩ ⟨tas⟩ ⟨alt⟩ ⟨dT⟩).1.val =
      M.rnd (M.rnd (M.rnd (M.rnd (ffac / e.number) *
        M.power (M.rnd (M.rnd ((temperature (flt M) ⟨M.rnd (alt * M.rnd 0.3048)⟩ ⟨dT⟩).val /
          M.rnd 288.15) / M.exp (M.rnd (M.rnd 0.2 * M.powi
            (M.rnd (M.rnd (tas * M.rnd 0.514444) /
              (vsound (flt M) ⟨M.rnd (alt * M.rnd 0.3048)⟩ ⟨dT⟩).val)) 2)))) (M.rnd 3.8)) /
        M.rnd (M.power (M.rnd (M.rnd 1.0 - M.rnd (M.rnd (M.rnd 0.0019812 * alt) / M.rnd 288.15)))
          (M.rnd 5.255876) / M.power (M.exp (M.rnd (M.rnd 0.2 * M.powi
            (M.rnd (M.rnd (tas * M.rnd 0.514444) /
              (vsound (flt M) ⟨M.rnd (alt * M.rnd 0.3048)⟩ ⟨dT⟩).val)) 2))) (M.rnd 3.5))) *
        M.exp (M.rnd (M.rnd 0.2 * M.powi
            (M.rnd (M.rnd (tas * M.rnd 0.514444) /
              (vsound (flt M) ⟨M.rnd (alt * M.rnd 0.3048)⟩ ⟨dT⟩).val)) 2))) := rfl
  have ev2 : (fl2sl (flt M) (Fl.emission M e) ⟨ffac⟩ ⟨tas⟩ ⟨alt⟩ ⟨dT⟩).2.val =
      M.rnd (M.power (M.rnd (M.rnd ((temperature (flt M) ⟨M.rnd (alt * M.rnd 0.3048)⟩ ⟨dT⟩).val /
          M.rnd 288.15) / M.exp (M.rnd (M.rnd 0.2 * M.powi
            (M.rnd (M.rnd (tas * M.rnd 0.514444) /
              (vsound (flt M) ⟨M.rnd (alt * M.rnd 0.3048)⟩ ⟨dT⟩).val)) 2)))) (M.rnd 3.3) /
        M.power (M.rnd (M.power (M.rnd (M.rnd 1.0 -
            M.rnd (M.rnd (M.rnd 0.0019812 * alt) / M.rnd 288.15)))
          (M.rnd 5.255876) / M.power (M.exp (M.rnd (M.rnd 0.2 * M.powi
            (M.rnd (M.rnd (tas * M.rnd 0.514444) /
              (vsound (flt M) ⟨M.rnd (alt * M.rnd 0.3048)⟩ ⟨dT⟩).val)) 2))) (M.rnd 3.5)))
          (M.rnd 1.02)) := rfl
  have hm : tas2mach np (tas * 0.514444) (alt * 0.3048) dT = v := by
    rw [hv, ← div_eq_mul_inv]; rfl
  have one : (1.0 : ℝ) = 1 := by norm_num
  have ex1 : (fl2sl np e ffac tas alt dT).1 =
      ffac / e.number * (isaTemp (alt * 0.3048) dT / 288.15 / exp (0.2 * (v * v))) ^ (3.8 : ℝ) /
        ((1 - 0.0019812 * alt * (288.15 : ℝ)⁻¹) ^ (5.255876 : ℝ) /
          exp (0.2 * (v * v)) ^ (3.5 : ℝ)) * exp (0.2 * (v * v)) := by
    rw [← hm, ← pow_two, ← temperature_eq, ← div_eq_mul_inv (0.0019812 * alt), ← one]; rfl
  have ex2 : (fl2sl np e ffac tas alt dT).2 =
      (isaTemp (alt * 0.3048) dT / 288.15 / exp (0.2 * (v * v))) ^ (3.3 : ℝ) /
        ((1 - 0.0019812 * alt * (288.15 : ℝ)⁻¹) ^ (5.255876 : ℝ) /
          exp (0.2 * (v * v)) ^ (3.5 : ℝ)) ^ (1.02 : ℝ) := by
    rw [← hm, ← pow_two, ← temperature_eq, ← div_eq_mul_inv (0.0019812 * alt), ← one]; rfl
  rw [ev1, ev2, ex1, ex2, rnd_1 M hw, div_eq_mul_inv (M.rnd (tas * M.rnd 0.514444)),
    div_eq_mul_inv (M.rnd (M.rnd 0.0019812 * alt)), ← hv']
  constructor
  · obtain ⟨k1, k2⟩ := range_mono (L := 50) (by norm_num) ff.mlo ff.mhi
    exact (ff.mono hu.le (by norm_num)).range k1 k2
  · obtain ⟨k1, k2⟩ := range_mono (L := 30) (by norm_num) ra.mlo ra.mhi
    exact (ra.mono hu.le (by norm_num)).range k1 k2

/-- One segment of the interpolation. -/
theorem fl_segment {x0 x1 f0 f1 x E : ℝ} (hg : 1 / 2000 ≤ x1 - x0) (hg' : x1 - x0 ≤ 10)
    (hx0 : x0 ≤ x) (hx1 : x ≤ x1) (h0 : 0 ≤ f0) (h0' : f0 ≤ E) (h1 : 0 ≤ f1) (h1' : f1 ≤ E)
    (hE : 1 / 100 ≤ E) (hE' : E ≤ 10000) :
    |M.rnd (M.rnd (M.rnd (M.rnd (f1 - f0) / M.rnd (x1 - x0)) * M.rnd (x - x0)) + f0) -
      (f0 + (f1 - f0) / (x1 - x0) * (x - x0))| ≤ 6.5 * E * f.u := by
  set G := x1 - x0 with hG
  have G0 : 0 < G := by linarith
  have D := (Ab.exact (f := f) (B := E) (b := f1 - f0) (abs_le.2 ⟨by linarith, by linarith⟩)).rnd
    M hw (c' := 1.001 * E) (by norm_num) (by norm_num; linarith) (by norm_num; linarith)
  have g := (Ap.exact (u := f.u) (L := 12) (b := G) (le_trans (by norm_num) hg)
    (hg'.trans (by norm_num))).rnd M hw (by norm_num) (by norm_num)
  have g' := Ab.of_ap hw (B := G⁻¹) (c := 1.03 * G⁻¹) g.inv (by norm_num) (by norm_num) le_rfl
    (by have := inv_pos.2 G0; nlinarith)
  have i0 : 0 < G⁻¹ := inv_pos.2 G0
  have i1 : 0.1 ≤ G⁻¹ := by
    rw [le_inv_comm₀ (by norm_num) G0]; norm_num; linarith
  have i2 : G⁻¹ ≤ 2000 := by
    rw [inv_le_comm₀ G0 (by norm_num)]; norm_num; linarith
  have EG0 : 1 / 1000 ≤ E * G⁻¹ := by nlinarith
  have EG1 : E * G⁻¹ ≤ 20000000 := by nlinarith
  have q := (D.mul hw g').rnd M hw (c' := 3.05 * (E * G⁻¹)) (by norm_num; nlinarith)
    (by norm_num; nlinarith) (by norm_num; nlinarith)
  have z := (Ab.exact (f := f) (B := G) (b := x - x0) (abs_le.2 ⟨by linarith, by linarith⟩)).rnd
    M hw (c' := 1.01 * G) (by norm_num) (by norm_num; linarith) (by norm_num; linarith)
  have ci : G⁻¹ * G = 1 := inv_mul_cancel₀ G0.ne'
  have p := (q.mul hw z)
  have pB : E * G⁻¹ * G = E := by rw [mul_assoc, ci, mul_one]
  have pc : 3.05 * (E * G⁻¹) * (G + 1.01 * G / 16000000) + E * G⁻¹ * (1.01 * G) ≤ 4.07 * E := by
    have e : 3.05 * (E * G⁻¹) * (G + 1.01 * G / 16000000) + E * G⁻¹ * (1.01 * G) =
      (3.05 * (1 + 1.01 / 16000000) + 1.01) * (E * G⁻¹ * G) := by ring
    rw [e, pB]
    nlinarith
  have p1 := ((p.mono pc).le (B' := E) (p.bound.trans pB.le)).rnd M hw (c' := 5.08 * E)
    (by norm_num; linarith) (by norm_num; linarith) (by norm_num; linarith)
  have t0 : 0 ≤ (x - x0) * G⁻¹ := mul_nonneg (by linarith) i0.le
  have t1 : (x - x0) * G⁻¹ ≤ 1 := by
    rw [← ci, mul_comm G⁻¹]; exact mul_le_mul_of_nonneg_right (by linarith) i0.le
  have v : |(f1 - f0) * G⁻¹ * (x - x0) + f0| ≤ E := by
    rw [show (f1 - f0) * G⁻¹ * (x - x0) + f0 = f0 * (1 - (x - x0) * G⁻¹) + f1 * ((x - x0) * G⁻¹)
      by ring]
    generalize (x - x0) * G⁻¹ = t at *
    exact abs_le.2 ⟨by nlinarith, by nlinarith⟩
  have r := ((p1.add (Ab.exact (f := f) (B := E) (b := f0) (abs_le.2 ⟨by linarith, h0'⟩))).le v).rnd
    M hw (c' := 6.5 * E) (by norm_num; linarith) (by norm_num; linarith) (by norm_num; linarith)
  rw [div_eq_mul_inv, div_eq_mul_inv, add_comm f0]
  exact r.err

variable {ff ei : Fin 4 → ℝ} {E : ℝ}

omit hw in
theorem gaps (h : LtoRange ff ei E) : ff 3 ≤ 12 * (ff 1 - ff 0) ∧ ff 3 ≤ 12 * (ff 2 - ff 1) ∧
    ff 3 ≤ 12 * (ff 3 - ff 2) := ⟨h.hGap 0, h.hGap 1, h.hGap 2⟩

omit hw in
theorem lto_np (e : Params ℝ) (ei : Fin 4 → ℝ) (x : ℝ) :
    lto np e ei x = if x < e.ff 0 then ei 0 else
      if x < e.ff 1 then ei 0 + (ei 1 - ei 0) / (e.ff 1 - e.ff 0) * (x - e.ff 0) else
      if x < e.ff 2 then ei 1 + (ei 2 - ei 1) / (e.ff 2 - e.ff 1) * (x - e.ff 1) else
      if x < e.ff 3 then ei 2 + (ei 3 - ei 2) / (e.ff 3 - e.ff 2) * (x - e.ff 2) else ei 3 := by
  simp only [lto, np, interpR, interpGo]

/-- The computed index at a given sea-level fuel flow. -/
theorem fl_lto_at (e : Params ℝ) (h : LtoRange e.ff ei E) (x : ℝ) :
    |(lto (flt M) (Fl.emission M e) (fun i => ⟨ei i⟩) ⟨x⟩).val - lto np e ei x| ≤
      6.5 * E * f.u := by
  have hu := f.u_pos
  obtain ⟨g1, g2, g3⟩ := gaps h
  obtain ⟨a1, a2⟩ := h.hLast
  obtain ⟨b1, b2⟩ := h.hBound
  have i := h.hIndex
  have f0 := h.hFirst
  have z : (0 : ℝ) ≤ 6.5 * E * f.u := by
    have : 0 < E := by linarith
    positivity
  rw [lto_np]
  have ev : (lto (flt M) (Fl.emission M e) (fun i => ⟨ei i⟩) ⟨x⟩).val =
    (if x < e.ff 0 then (⟨ei 0⟩ : Fl M) else
      if x < e.ff 1 then ⟨M.rnd (M.rnd (M.rnd (M.rnd (ei 1 - ei 0) / M.rnd (e.ff 1 - e.ff 0)) *
        M.rnd (x - e.ff 0)) + ei 0)⟩ else
      if x < e.ff 2 then ⟨M.rnd (M.rnd (M.rnd (M.rnd (ei 2 - ei 1) / M.rnd (e.ff 2 - e.ff 1)) *
        M.rnd (x - e.ff 1)) + ei 1)⟩ else
      if x < e.ff 3 then ⟨M.rnd (M.rnd (M.rnd (M.rnd (ei 3 - ei 2) / M.rnd (e.ff 3 - e.ff 2)) *
        M.rnd (x - e.ff 2)) + ei 2)⟩ else ⟨ei 3⟩).val := by
    simp only [lto, flt, Fl.interp, Fl.interpGo]
    congr
  rw [ev]
  split_ifs
  · simpa using z
  · exact fl_segment M hw (by linarith) (by linarith) (by linarith) (by linarith) (i 0).1 (i 0).2
      (i 1).1 (i 1).2 b1 b2
  · exact fl_segment M hw (by linarith) (by linarith) (by linarith) (by linarith) (i 1).1 (i 1).2
      (i 2).1 (i 2).2 b1 b2
  · exact fl_segment M hw (by linarith) (by linarith) (by linarith) (by linarith) (i 2).1 (i 2).2
      (i 3).1 (i 3).2 b1 b2
  · simpa using z

omit hw in
/-- The exact index changes by at most `12 E / ff 3` per kg/s, and not at all beyond take-off. -/
theorem lto_lip (e : Params ℝ) (h : LtoRange e.ff ei E) (x y : ℝ) :
    |lto np e ei x - lto np e ei y| ≤ 12 * E / e.ff 3 * |min x (e.ff 3) - min y (e.ff 3)| := by
  obtain ⟨g1, g2, g3⟩ := gaps h
  obtain ⟨a1, -⟩ := h.hLast
  have i := h.hIndex
  have t0 : 0 < e.ff 3 := by linarith
  have E0 : 0 ≤ E := (i 0).1.trans (i 0).2
  have slope : ∀ a b c d : ℝ, 0 ≤ a → a ≤ E → 0 ≤ b → b ≤ E → e.ff 3 ≤ 12 * (d - c) →
      |(b - a) / (d - c)| ≤ 12 * E / e.ff 3 := by
    intro a b c d a0 a1 b0 b1 hd
    have d0 : 0 < d - c := by linarith
    rw [abs_div, abs_of_pos d0, div_le_div_iff₀ d0 t0]
    have : |b - a| ≤ E := abs_le.2 ⟨by linarith, by linarith⟩
    nlinarith [abs_nonneg (b - a)]
  have s1 := slope _ _ _ _ (i 0).1 (i 0).2 (i 1).1 (i 1).2 g1
  have s2 := slope _ _ _ _ (i 1).1 (i 1).2 (i 2).1 (i 2).2 g2
  have s3 := slope _ _ _ _ (i 2).1 (i 2).2 (i 3).1 (i 3).2 g3
  have d1 : e.ff 1 - e.ff 0 ≠ 0 := by linarith
  have d2 : e.ff 2 - e.ff 1 ≠ 0 := by linarith
  have d3 : e.ff 3 - e.ff 2 ≠ 0 := by linarith
  have k1 := div_mul_cancel₀ (ei 1 - ei 0) d1
  have k2 := div_mul_cancel₀ (ei 2 - ei 1) d2
  have k3 := div_mul_cancel₀ (ei 3 - ei 2) d3
  set S := 12 * E / e.ff 3
  have eq : ∀ x, lto np e ei x = ei 0 +
      (ei 1 - ei 0) / (e.ff 1 - e.ff 0) * (min (max x (e.ff 0)) (e.ff 1) - e.ff 0) +
      (ei 2 - ei 1) / (e.ff 2 - e.ff 1) * (min (max x (e.ff 1)) (e.ff 2) - e.ff 1) +
      (ei 3 - ei 2) / (e.ff 3 - e.ff 2) * (min (max x (e.ff 2)) (e.ff 3) - e.ff 2) := by
    intro x
    rw [lto_np]
    generalize (ei 1 - ei 0) / (e.ff 1 - e.ff 0) = p1 at *
    generalize (ei 2 - ei 1) / (e.ff 2 - e.ff 1) = p2 at *
    generalize (ei 3 - ei 2) / (e.ff 3 - e.ff 2) = p3 at *
    split_ifs with c0 c1 c2 c3
    · rw [max_eq_right c0.le, max_eq_right (by linarith), max_eq_right (by linarith),
        min_eq_left (by linarith), min_eq_left (by linarith), min_eq_left (by linarith)]
      ring
    · rw [max_eq_left (by linarith), max_eq_right (by linarith), max_eq_right (by linarith),
        min_eq_left (by linarith), min_eq_left (by linarith), min_eq_left (by linarith)]
      ring
    · rw [max_eq_left (by linarith), max_eq_left (by linarith), max_eq_right (by linarith),
        min_eq_right (by linarith), min_eq_left (by linarith), min_eq_left (by linarith)]
      linear_combination -k1
    · rw [max_eq_left (by linarith), max_eq_left (by linarith), max_eq_left (by linarith),
        min_eq_right (by linarith), min_eq_right (by linarith), min_eq_left (by linarith)]
      linear_combination -k1 - k2
    · rw [max_eq_left (by linarith), max_eq_left (by linarith), max_eq_left (by linarith),
        min_eq_right (by linarith), min_eq_right (by linarith), min_eq_right (by linarith)]
      linear_combination -k1 - k2 - k3
  have one : ∀ x y, x ≤ y → |lto np e ei x - lto np e ei y| ≤
      S * |min x (e.ff 3) - min y (e.ff 3)| := by
    intro x y hxy
    rw [eq, eq]
    have m : ∀ a b : ℝ, min (max x a) b ≤ min (max y a) b := fun a b =>
      min_le_min_right _ (max_le_max_right _ hxy)
    have m1 := m (e.ff 0) (e.ff 1)
    have m2 := m (e.ff 1) (e.ff 2)
    have m3 := m (e.ff 2) (e.ff 3)
    have tel : ∀ x, min (max x (e.ff 0)) (e.ff 1) + min (max x (e.ff 1)) (e.ff 2) +
        min (max x (e.ff 2)) (e.ff 3) - e.ff 1 - e.ff 2 = max (min x (e.ff 3)) (e.ff 0) := by
      intro x
      rcases lt_or_ge x (e.ff 0) with c0 | c0
      · rw [max_eq_right c0.le, max_eq_right (by linarith), max_eq_right (by linarith),
          min_eq_left (by linarith), min_eq_left (by linarith), min_eq_left (by linarith),
          min_eq_left (by linarith), max_eq_right c0.le]
        ring
      rw [max_eq_left c0]
      rcases lt_or_ge x (e.ff 1) with c1 | c1
      · rw [max_eq_right (by linarith), max_eq_right (by linarith),
          min_eq_left (by linarith), min_eq_left (by linarith), min_eq_left (by linarith),
          min_eq_left (by linarith), max_eq_left c0]
        ring
      rw [max_eq_left c1]
      rcases lt_or_ge x (e.ff 2) with c2 | c2
      · rw [max_eq_right (by linarith),
          min_eq_right (by linarith), min_eq_left (by linarith), min_eq_left (by linarith),
          min_eq_left (by linarith), max_eq_left c0]
        ring
      rw [max_eq_left c2, min_eq_right c1, min_eq_right c2,
        max_eq_left (le_min c0 (by linarith))]
      ring
    have tx := tel x
    have ty := tel y
    have ub : max (min y (e.ff 3)) (e.ff 0) - max (min x (e.ff 3)) (e.ff 0) ≤
        min y (e.ff 3) - min x (e.ff 3) := by
      have : min x (e.ff 3) ≤ min y (e.ff 3) := min_le_min_right _ hxy
      rcases le_total (min y (e.ff 3)) (e.ff 0) with c | c
      · rw [max_eq_right c, max_eq_right (this.trans c)]; linarith
      · rw [max_eq_left c]; have := le_max_left (min x (e.ff 3)) (e.ff 0); linarith
    have hm : min x (e.ff 3) ≤ min y (e.ff 3) := min_le_min_right _ hxy
    rw [abs_sub_comm (min x _), abs_of_nonneg (sub_nonneg.2 hm)]
    have S0 : 0 ≤ S := (abs_nonneg _).trans s1
    generalize min (max x (e.ff 0)) (e.ff 1) = x1 at *
    generalize min (max x (e.ff 1)) (e.ff 2) = x2 at *
    generalize min (max x (e.ff 2)) (e.ff 3) = x3 at *
    generalize min (max y (e.ff 0)) (e.ff 1) = y1 at *
    generalize min (max y (e.ff 1)) (e.ff 2) = y2 at *
    generalize min (max y (e.ff 2)) (e.ff 3) = y3 at *
    generalize (ei 1 - ei 0) / (e.ff 1 - e.ff 0) = p1 at *
    generalize (ei 2 - ei 1) / (e.ff 2 - e.ff 1) = p2 at *
    generalize (ei 3 - ei 2) / (e.ff 3 - e.ff 2) = p3 at *
    calc _ = |p1 * (x1 - y1) + p2 * (x2 - y2) + p3 * (x3 - y3)| := by congr 1; ring
      _ ≤ |p1| * |x1 - y1| + |p2| * |x2 - y2| + |p3| * |x3 - y3| := by
          refine (abs_add_three _ _ _).trans (le_of_eq ?_)
          rw [abs_mul, abs_mul, abs_mul]
      _ ≤ S * |x1 - y1| + S * |x2 - y2| + S * |x3 - y3| := by gcongr
      _ = S * ((y1 - x1) + (y2 - x2) + (y3 - x3)) := by
          rw [abs_sub_comm x1, abs_sub_comm x2, abs_sub_comm x3, abs_of_nonneg (sub_nonneg.2 m1),
            abs_of_nonneg (sub_nonneg.2 m2), abs_of_nonneg (sub_nonneg.2 m3)]
          ring
      _ ≤ _ := mul_le_mul_of_nonneg_left (by linarith) S0
  rcases le_total x y with hxy | hxy
  · exact one x y hxy
  · rw [abs_sub_comm, abs_sub_comm (min x _)]; exact one y x hxy

/-- The computed index at a sea-level fuel flow that is itself computed. -/
theorem fl_lto (e : Params ℝ) (h : LtoRange e.ff ei E) {x x' : ℝ} {L : ℕ}
    (hx : Ap f.u 270 L x' x) :
    |(lto (flt M) (Fl.emission M e) (fun i => ⟨ei i⟩) ⟨x'⟩).val - lto np e ei x| ≤
      3290 * E * f.u := by
  have hu := f.u_pos
  have hu' := hw.u_le'
  obtain ⟨a1, a2⟩ := h.hLast
  obtain ⟨b1, b2⟩ := h.hBound
  have t0 : 0 < e.ff 3 := by linarith
  have r := hx.rel (by norm_num) hu.le (by nlinarith)
  have x0 := hx.pos
  have d : |min x' (e.ff 3) - min x (e.ff 3)| ≤ 273 * f.u * e.ff 3 := by
    have fu : 0 < f.u * e.ff 3 := by positivity
    obtain ⟨r1, r2⟩ := abs_le.1 r
    rcases le_total x (e.ff 3) with c | c
    · have := abs_min_sub_min_le_max x' (e.ff 3) x (e.ff 3)
      rw [sub_self, abs_zero, max_eq_left (abs_nonneg _)] at this
      refine this.trans (r.trans ?_)
      nlinarith
    · rw [min_eq_right c]
      rcases le_total x' (e.ff 3) with c' | c'
      · rw [min_eq_left c', abs_sub_comm, abs_of_nonneg (by linarith)]
        have : x ≤ 1.0001 * e.ff 3 := by nlinarith
        nlinarith
      · rw [min_eq_right c', sub_self, abs_zero]; nlinarith
  have p := fl_lto_at M hw e h x'
  have q := lto_lip e h x' x
  have q' : 12 * E / e.ff 3 * |min x' (e.ff 3) - min x (e.ff 3)| ≤ 3276 * E * f.u := by
    have : 12 * E / e.ff 3 * |min x' (e.ff 3) - min x (e.ff 3)| ≤
        12 * E / e.ff 3 * (273 * f.u * e.ff 3) := by gcongr
    refine this.trans (le_of_eq ?_)
    field_simp
    ring
  calc _ ≤ _ + _ := abs_sub_le _ (lto np e ei x') _
    _ ≤ 6.5 * E * f.u + 3276 * E * f.u := add_le_add p (q.trans q')
    _ ≤ _ := by nlinarith [mul_pos (by linarith : 0 < E) hu]

omit hw in
/-- An approximation in units of a scale `S`, times a positive factor. -/
theorem scaled_mul (hw : f.Wide) {a b c n S r r' : ℝ} {L : ℕ} (h : |a - b| ≤ c * f.u * S)
    (hb : |b| ≤ S) (hc : 0 ≤ c) (hr : Ap f.u n L r' r) (n0 : 0 ≤ n) (n1 : n ≤ 500) :
    |a * r' - b * r| ≤ (1.001 * c + 1.01 * n) * f.u * (S * r) := by
  have hu := f.u_pos
  have hu' := hw.u_le'
  have r0 := hr.pos
  have S0 : 0 ≤ S := (abs_nonneg _).trans hb
  have e := hr.rel n0 hu.le (by nlinarith)
  have e' : r' ≤ 1.001 * r := by
    have : 1.01 * n * f.u ≤ 0.001 := by nlinarith
    have := (abs_le.1 e).2
    nlinarith
  have cS : 0 ≤ c * f.u * S := by positivity
  calc |a * r' - b * r| = |(a - b) * r' + b * (r' - r)| := by congr 1; ring
    _ ≤ |a - b| * r' + |b| * |r' - r| := by
        refine (abs_add_le _ _).trans (le_of_eq ?_)
        rw [abs_mul, abs_mul, abs_of_pos hr.pos']
    _ ≤ c * f.u * S * (1.001 * r) + S * (1.01 * n * f.u * r) := by
        refine add_le_add (mul_le_mul h e' hr.pos'.le cS) (mul_le_mul hb e (abs_nonneg _) S0)
    _ = _ := by ring

/-- Rounding in units of a scale. -/
theorem scaled_rnd {a b c S : ℝ} {L : ℕ} (h : |a - b| ≤ c * f.u * S) (hb : |b| ≤ S) (hc : 0 ≤ c)
    (hc' : c ≤ 10000) (hS : Ap f.u 0 L S S) (hL : L ≤ 100) :
    |M.rnd a - b| ≤ (c + 1.01) * f.u * S := by
  have hu := f.u_pos
  have hu' := hw.u_le'
  have S0 := hS.pos
  have ha : |a| ≤ 1.01 * S := by
    have : c * f.u ≤ 0.01 := by nlinarith
    calc |a| = |(a - b) + b| := by congr 1; ring
      _ ≤ |a - b| + |b| := abs_add_le _ _
      _ ≤ c * f.u * S + S := add_le_add h hb
      _ ≤ _ := by nlinarith
  obtain ⟨k1, k2⟩ := range_mono (L := 100) hL hS.mlo hS.mhi
  have e := M.rnd_err hw (x := a) (ha.trans (by
    have : (1.01 : ℝ) * 2 ^ ((100 : ℕ) : ℤ) ≤ 2 ^ (127 : ℤ) := by norm_num
    exact (mul_le_mul_of_nonneg_left k2 (by norm_num)).trans this))
  have m : max |a| ((2 : ℝ) ^ (-126 : ℤ)) ≤ 1.01 * S := by
    refine max_le ha ?_
    have : (2 : ℝ) ^ (-126 : ℤ) ≤ 2 ^ (-((100 : ℕ) : ℤ)) := by norm_num
    exact this.trans (k1.trans (by linarith))
  calc |M.rnd a - b| = |(M.rnd a - a) + (a - b)| := by congr 1; ring
    _ ≤ |M.rnd a - a| + |a - b| := abs_add_le _ _
    _ ≤ f.u * (1.01 * S) + c * f.u * S :=
        add_le_add (e.trans (mul_le_mul_of_nonneg_left m hu.le)) h
    _ = _ := by ring

omit hw in
/-- The index and its scale. -/
theorem index_le (e : Params ℝ) (h : LtoRange e.ff ei E) (x : ℝ) : |lto np e ei x| ≤ E := by
  obtain ⟨g1, g2, g3⟩ := gaps h
  obtain ⟨a1, -⟩ := h.hLast
  have o : Ordered e.ff := ⟨by linarith, by linarith, by linarith⟩
  obtain ⟨l, u⟩ := IsLto.bounds (lto_spec e ei o x) o (lo := 0) (hi := E)
    (fun k => (h.hIndex k).1) (fun k => (h.hIndex k).2)
  exact abs_le.2 ⟨by linarith, u⟩

variable {ffac tas alt : ℝ}

/-- CO and HC. -/
theorem fl_index_ratio (e : Params ℝ) (h : LtoRange e.ff ei E) (hN1 : 1 ≤ e.number)
    (hN2 : e.number ≤ 10) (f1 : 1 / 10000 ≤ ffac) (f2 : ffac ≤ 100) (t1 : 0 ≤ tas) (t2 : tas ≤ 600)
    (h1 : -1000 ≤ alt * 0.3048) (h2 : alt * 0.3048 ≤ 15000) (dT : ℝ) :
    |M.rnd (M.rnd ((lto (flt M) (Fl.emission M e) (fun i => ⟨ei i⟩)
        (fl2sl (flt M) (Fl.emission M e) ⟨ffac⟩ ⟨tas⟩ ⟨alt⟩ ⟨dT⟩).1).val *
        (fl2sl (flt M) (Fl.emission M e) ⟨ffac⟩ ⟨tas⟩ ⟨alt⟩ ⟨dT⟩).2.val) * ffac) -
      lto np e ei (fl2sl np e ffac tas alt dT).1 * (fl2sl np e ffac tas alt dT).2 * ffac| ≤
      3560 * f.u * (E * (fl2sl np e ffac tas alt dT).2 * ffac) := by
  have hu := f.u_pos
  obtain ⟨s, r⟩ := fl_fl2sl M hw e hN1 hN2 f1 f2 t1 t2 h1 h2 dT
  obtain ⟨b1, b2⟩ := h.hBound
  have g := fl_lto M hw e h s
  rw [show 3290 * E * f.u = 3290 * f.u * E by ring] at g
  have gb := index_le e h (fl2sl np e ffac tas alt dT).1
  have r0 := r.pos
  have eE := Ap.exact (u := f.u) (L := 14) (b := E) (le_trans (by norm_num) b1)
    (b2.trans (by norm_num))
  have er := Ap.exact (u := f.u) r.mlo r.mhi
  have ef := Ap.exact (u := f.u) (L := 14) (b := ffac) (le_trans (by norm_num) f1)
    (f2.trans (by norm_num))
  have S1 := (eE.mul er).mono (m := 0) hu.le (by norm_num)
  have S2 := (S1.mul ef).mono (m := 0) hu.le (by norm_num)
  have p1 := scaled_rnd M hw (scaled_mul hw g gb (by norm_num) r (by norm_num) (by norm_num))
    (by rw [abs_mul, abs_of_pos r0]; exact mul_le_mul_of_nonneg_right gb r0.le) (by norm_num)
    (by norm_num) S1 (by norm_num)
  have b1 : |lto np e ei (fl2sl np e ffac tas alt dT).1 * (fl2sl np e ffac tas alt dT).2| ≤
      E * (fl2sl np e ffac tas alt dT).2 := by
    rw [abs_mul, abs_of_pos r0]; exact mul_le_mul_of_nonneg_right gb r0.le
  have p2 := scaled_rnd M hw (scaled_mul hw p1 b1 (by norm_num) ef (by norm_num) (by norm_num))
    (by rw [abs_mul, abs_of_pos ef.pos]; exact mul_le_mul_of_nonneg_right b1 ef.pos.le) (by norm_num)
    (by norm_num) S2 (by norm_num)
  refine p2.trans ?_
  have := S2.pos
  gcongr
  norm_num

/-- Humidity factor of NOx. -/
theorem fl_humidity (h1 : -1000 ≤ alt * 0.3048) (h2 : alt * 0.3048 ≤ 15000) :
    Ap f.u 15 1 (M.exp (M.rnd (-M.rnd 19.0 * M.rnd (M.rnd (M.rnd 0.001 * M.exp (M.rnd (-M.rnd 0.0001426 *
      M.rnd (alt - M.rnd 12900.0)))) - M.rnd 0.00634))))
      (exp (-19 * (0.001 * exp (-0.0001426 * (alt - 12900)) - 0.00634))) := by
  have hu := f.u_pos
  have l := Thrust.fl_lit M hw
  have n1 : M.rnd 12900.0 = 12900 := by
    rw [show (12900.0 : ℝ) = ((12900 : ℕ) : ℝ) by norm_num]; exact M.rnd_nat hw _ (by norm_num)
  have n2 : M.rnd 19.0 = 19 := by
    rw [show (19.0 : ℝ) = ((19 : ℕ) : ℝ) by norm_num]; exact M.rnd_nat hw _ (by norm_num)
  rw [n1, n2]
  have a1 := (Ab.exact (f := f) (B := 36314) (b := alt - 12900)
    (abs_le.2 ⟨by linarith, by linarith⟩)).rnd M hw (c' := 36315) (by norm_num) (by norm_num)
    (by norm_num)
  have a2 := ((l 0.0001426 (by norm_num) (by norm_num)).neg.mul hw a1).rnd M hw (c' := 16)
    (by norm_num) (by norm_num) (by norm_num)
  set z := -0.0001426 * (alt - 12900) with hz
  have z1 : -5.3 ≤ z := by rw [hz]; linarith
  have z2 : z ≤ 2.31 := by rw [hz]; linarith
  have e1 : exp z ≤ 11 := by
    have h := exp_bound_div_one_sub_of_interval (x := 0.31) (by norm_num) (by norm_num)
    have h1 := exp_one_lt_d9
    calc exp z ≤ exp 2.31 := exp_le_exp.2 z2
      _ = exp 1 ^ 2 * exp 0.31 := by rw [← exp_nat_mul, ← exp_add]; norm_num
      _ ≤ 2.7182818286 ^ 2 * (1 / (1 - 0.31)) := by gcongr
      _ ≤ _ := by norm_num
  have e0 : (2 : ℝ) ^ (-(8 : ℕ) : ℤ) ≤ exp z := by
    have h := exp_bound_div_one_sub_of_interval (x := 0.3) (by norm_num) (by norm_num)
    have h1 := exp_one_lt_d9
    have h2 : exp 5.3 ≤ 256 := by
      calc exp 5.3 = exp 1 ^ 5 * exp 0.3 := by rw [← exp_nat_mul, ← exp_add]; norm_num
        _ ≤ 2.7182818286 ^ 5 * (1 / (1 - 0.3)) := by gcongr
        _ ≤ _ := by norm_num
    calc (2 : ℝ) ^ (-(8 : ℕ) : ℤ) = 256⁻¹ := by norm_num
      _ ≤ (exp 5.3)⁻¹ := inv_anti₀ (exp_pos _) h2
      _ = exp (-5.3) := (exp_neg _).symm
      _ ≤ _ := exp_le_exp.2 z1
  have b1 := ((Ap.exp (K := 8) a2.err e0 (e1.trans (by norm_num))).lib
    (M.exp_acc _) hw (by norm_num) (by norm_num))
  have b2 := ((Ap.lit M hw (L := 10) (b := 0.001) (by norm_num) (by norm_num) (by norm_num)).mul
    b1).rnd M hw (by norm_num) (by norm_num)
  have b3 := Ab.of_ap hw (B := 0.011) (c := 0.31) b2 (by norm_num) (by norm_num) (by linarith)
    (by norm_num)
  have b4 := (b3.sub (l 0.00634 (by norm_num) (by norm_num))).rnd M hw (c' := 0.34) (by norm_num)
    (by norm_num) (by norm_num)
  have b5 := ((Ab.exact (f := f) (B := 19) (b := -19) (by norm_num)).mul hw b4).rnd M hw
    (c' := 6.9) (by norm_num) (by norm_num) (by norm_num)
  set w := -19 * (0.001 * exp z - 0.00634) with hwd
  have w1 : -0.1 ≤ w := by rw [hwd]; linarith
  have w2 : w ≤ 0.13 := by rw [hwd]; have := exp_pos z; linarith
  refine ((Ap.exp (K := 1) b5.err ?_ ?_).lib (M.exp_acc _) hw (by norm_num) (by norm_num)).mono
    hu.le (by norm_num)
  · have := add_one_le_exp w
    norm_num; linarith
  · have h := exp_bound_div_one_sub_of_interval' (x := 0.13) (by norm_num) (by norm_num)
    have : exp w ≤ exp 0.13 := exp_le_exp.2 w2
    norm_num at h ⊢
    linarith

/-- NOx. -/
theorem fl_nox (e : Params ℝ) (h : LtoRange e.ff e.nox E) (hN1 : 1 ≤ e.number)
    (hN2 : e.number ≤ 10) (f1 : 1 / 10000 ≤ ffac) (f2 : ffac ≤ 100) (t1 : 0 ≤ tas) (t2 : tas ≤ 600)
    (h1 : -1000 ≤ alt * 0.3048) (h2 : alt * 0.3048 ≤ 15000) (dT : ℝ) :
    |(nox (flt M) (Fl.emission M e) ⟨ffac⟩ ⟨tas⟩ ⟨alt⟩ ⟨dT⟩).val - nox np e ffac tas alt dT| ≤
      3480 * f.u * (E * √(1 / (fl2sl np e ffac tas alt dT).2) *
        exp (-19 * (0.001 * exp (-0.0001426 * (alt - 12900)) - 0.00634)) * ffac) := by
  have hu := f.u_pos
  obtain ⟨s, r⟩ := fl_fl2sl M hw e hN1 hN2 f1 f2 t1 t2 h1 h2 dT
  obtain ⟨b1, b2⟩ := h.hBound
  have g := fl_lto M hw e h s
  rw [show 3290 * E * f.u = 3290 * f.u * E by ring] at g
  have gb := index_le e h (fl2sl np e ffac tas alt dT).1
  have q := (((Ap.exact (u := f.u) (L := 1) (b := 1) (by norm_num) (by norm_num)).div r).rnd M hw
    (by norm_num) (by norm_num)).sqrt.rnd M hw (by norm_num) (by norm_num)
  have w := fl_humidity M hw h1 h2
  have eE := Ap.exact (u := f.u) (L := 14) (b := E) (le_trans (by norm_num) b1)
    (b2.trans (by norm_num))
  have ef := Ap.exact (u := f.u) (L := 14) (b := ffac) (le_trans (by norm_num) f1)
    (f2.trans (by norm_num))
  have S1 := (eE.mul (Ap.exact (u := f.u) q.mlo q.mhi)).mono (m := 0) hu.le (by norm_num)
  have S2 := (S1.mul (Ap.exact (u := f.u) w.mlo w.mhi)).mono (m := 0) hu.le (by norm_num)
  have S3 := (S2.mul ef).mono (m := 0) hu.le (by norm_num)
  have le : ∀ {a b c : ℝ}, |a| ≤ b → 0 < c → |a * c| ≤ b * c := fun h c0 => by
    rw [abs_mul, abs_of_pos c0]; exact mul_le_mul_of_nonneg_right h c0.le
  have p1 := scaled_rnd M hw (scaled_mul hw g gb (by norm_num) q (by norm_num) (by norm_num))
    (le gb q.pos) (by norm_num) (by norm_num) S1 (by norm_num)
  have p2 := scaled_rnd M hw (scaled_mul hw p1 (le gb q.pos) (by norm_num) w (by norm_num)
    (by norm_num)) (le (le gb q.pos) w.pos) (by norm_num) (by norm_num) S2 (by norm_num)
  have p3 := scaled_rnd M hw (scaled_mul hw p2 (le (le gb q.pos) w.pos) (by norm_num) ef
    (by norm_num) (by norm_num)) (le (le (le gb q.pos) w.pos) ef.pos) (by norm_num) (by norm_num)
    S3 (by norm_num)
  have ev : (nox (flt M) (Fl.emission M e) ⟨ffac⟩ ⟨tas⟩ ⟨alt⟩ ⟨dT⟩).val =
      M.rnd (M.rnd (M.rnd ((lto (flt M) (Fl.emission M e) (fun i => ⟨e.nox i⟩)
        (fl2sl (flt M) (Fl.emission M e) ⟨ffac⟩ ⟨tas⟩ ⟨alt⟩ ⟨dT⟩).1).val *
        M.rnd (√(M.rnd (M.rnd 1.0 /
          (fl2sl (flt M) (Fl.emission M e) ⟨ffac⟩ ⟨tas⟩ ⟨alt⟩ ⟨dT⟩).2.val)))) *
        M.exp (M.rnd (-M.rnd 19.0 * M.rnd (M.rnd (M.rnd 0.001 * M.exp (M.rnd
          (-M.rnd 0.0001426 * M.rnd (alt - M.rnd 12900.0)))) - M.rnd 0.00634)))) * ffac) := rfl
  have ex : nox np e ffac tas alt dT = lto np e e.nox (fl2sl np e ffac tas alt dT).1 *
      √(1 / (fl2sl np e ffac tas alt dT).2) *
        exp (-19 * (0.001 * exp (-0.0001426 * (alt - 12900)) - 0.00634)) * ffac := by
    rw [show (1 : ℝ) = 1.0 by norm_num, show (12900 : ℝ) = 12900.0 by norm_num,
      show (19 : ℝ) = 19.0 by norm_num]
    rfl
  rw [ev, ex, rnd_1 M hw]
  refine p3.trans ?_
  have := S3.pos
  gcongr
  norm_num

end Emission
end Verif
