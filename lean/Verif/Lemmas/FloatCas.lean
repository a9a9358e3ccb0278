import Verif.Lemmas.FloatAirspeed

/-!
# Rounding errors of the conversions through calibrated airspeed
-/

namespace Verif
open Real

namespace Aero

variable {f : Format} (M : Machine f) (hw : f.Wide)

include hw in
theorem fl_cas2tas {v v' nv h : ℝ} (hv : Ap f.u nv 10 v' v) (hn : 0 ≤ nv) (hn' : nv ≤ 100)
    (v1 : 30 ≤ v) (v2 : v ≤ 400) (h1 : -1000 ≤ h) (h2 : h ≤ 15000) (dT : ℝ) :
    Ap f.u (225 + 2.5 * nv + 4.4e6 / v ^ 2) 100 (cas2tas (flt M) ⟨v'⟩ ⟨h⟩ ⟨dT⟩).val
      (cas2tas np v h dT) := by
  have hu := f.u_pos
  have hh : |h| ≤ 50000 := abs_le.2 ⟨by linarith, by linarith⟩
  have e : (cas2tas (flt M) ⟨v'⟩ ⟨h⟩ ⟨dT⟩).val =
      M.rnd (√(M.rnd (M.rnd (M.rnd (M.rnd 7.0 * (pressure (flt M) ⟨h⟩ ⟨dT⟩).val) /
        (density (flt M) ⟨h⟩ ⟨dT⟩).val) *
        M.rnd (M.power (M.rnd (M.rnd 1.0 + M.rnd (M.rnd (M.rnd 101325.0 *
          M.rnd (M.power (M.rnd (M.rnd 1.0 + M.rnd (M.rnd (M.rnd (M.rnd 1.225 * v') * v') /
            M.rnd (M.rnd 7.0 * M.rnd 101325.0)))) (M.rnd 3.5) - M.rnd 1.0)) /
          (pressure (flt M) ⟨h⟩ ⟨dT⟩).val))) (M.rnd (M.rnd 2.0 / M.rnd 7.0)) - M.rnd 1.0)))) := rfl
  have e' : cas2tas np v h dT = √(7 * pressure np h dT / density np h dT *
      ((1 + 101325 * ((1 + 1.225 * v * v / 709275) ^ (3.5 : ℝ) - 1) / pressure np h dT) ^
        (2 / 7 : ℝ) - 1)) := by
    show √(7.0 * pressure np h dT / density np h dT *
      ((1.0 + 101325.0 * ((1.0 + 1.225 * v * v / (7.0 * 101325.0)) ^ (3.5 : ℝ) - 1.0) /
        pressure np h dT) ^ (2.0 / 7.0 : ℝ) - 1.0)) = _
    norm_num
  have r7 : M.rnd (7 * 101325) = 709275 := by
    have := M.rnd_nat hw 709275 (by norm_num)
    norm_num at this ⊢; exact this
  rw [e, e', rnd_7 M hw, rnd_1 M hw, rnd_p0 M hw, rnd_3_5 M hw, rnd_2 M hw, r7]
  have v0 : 0 < v := by linarith
  have hv2 : v * v = v ^ 2 := by ring
  have sq1 : 900 ≤ v ^ 2 := by nlinarith
  have sq2 : v ^ 2 ≤ 160000 := by nlinarith
  obtain ⟨p1, p2⟩ := pressure_bounds h1 h2 dT
  obtain ⟨d1, d2⟩ := density_bounds h1 h2 dT
  have hp := fl_pressure M hw hh dT
  have hd := fl_density M hw hh dT
  set p := pressure np h dT with hpd
  set d := density np h dT with hdd
  -- the Mach-like argument
  have x1 := ((Ap.lit M hw (L := 1) (b := 1.225) (by norm_num) (by norm_num) (by norm_num)).mul
    hv).rnd M hw (by norm_num) (by linarith)
  have x2 := (x1.mul hv).rnd M hw (by norm_num) (by linarith)
  have x3 := ((x2.div (Ap.exact (u := f.u) (L := 20) (b := 709275) (by norm_num)
    (by norm_num))).rnd M hw (by norm_num) (by linarith)).mono (m := 4.04 + 2 * nv) hu.le
    (by linarith)
  set x := 1.225 * v * v / 709275 with hx
  have xe : x = 1.225 * v ^ 2 / 709275 := by rw [hx]; ring
  have xl : 0.0015 ≤ x := by rw [xe]; linarith
  have xu : x ≤ 0.2764 := by rw [xe]; linarith
  have x4 := x3.range (K := 20) (le_trans (by norm_num) xl) (xu.trans (by norm_num))
  have ie : 3.5 / x = 2026500 / v ^ 2 := by rw [xe]; field_simp; norm_num
  have iv : 0 < 1 / v ^ 2 := by positivity
  have iv2 : 1 / v ^ 2 ≤ 1 / 900 := one_div_le_one_div_of_le (by norm_num) sq1
  have fe : ∀ c : ℝ, c / v ^ 2 = c * (1 / v ^ 2) := fun c => by ring
  set i := 1 / v ^ 2 with hi
  rw [fe] at ie
  have a1 := (fl_pow35 M hw x4 (B := 2.08) (by linarith) (by linarith) (by
    calc (1 + x) ^ 3 ≤ (1 + 0.2764) ^ 3 := by gcongr
      _ ≤ 2.08 := by norm_num) (by rw [ie]; linarith)).mono (m := 23 + 4.46 * nv + 2026500 * i)
      hu.le (by rw [ie]; linarith)
  obtain ⟨w1, w2, w3⟩ := pow35_bounds (by linarith : 0 < x) (by linarith)
  have w4 : (1 + x) ^ (3.5 : ℝ) ≤ 2.35 := by
    calc (1 + x) ^ (3.5 : ℝ) ≤ (1.2764 : ℝ) ^ (3.5 : ℝ) :=
          rpow_le_rpow (by linarith) (by linarith) (by norm_num)
      _ ≤ 2.35 := by
          rw [show (3.5 : ℝ) = (7 : ℕ) * (1 / 2) by norm_num, rpow_mul (by norm_num),
            rpow_natCast, ← sqrt_eq_rpow]
          exact sqrt_le_iff.2 ⟨by norm_num, by norm_num⟩
  have a2 := ((Ap.exact (u := f.u) (L := 17) (b := 101325) (by norm_num) (by norm_num)).mul
    a1).rnd M hw (by norm_num) (by linarith)
  set q := 101325 * ((1 + x) ^ (3.5 : ℝ) - 1) with hq
  have ql : 0.6125 * v ^ 2 ≤ q := by rw [hq]; rw [xe] at w1 ⊢; linarith
  have a3 := ((a2.div hp).rnd M hw (by norm_num) (by linarith)).mono
    (m := 144.1 + 4.46 * nv + 2026500 * i) hu.le (by linarith)
  have yl : 0.0000049 * v ^ 2 ≤ q / p := by
    rw [le_div_iff₀ (by linarith)]
    calc 0.0000049 * v ^ 2 * p ≤ 0.0000049 * v ^ 2 * 125000 := by gcongr
      _ ≤ _ := by linarith
  have yu : q / p ≤ 20 := by
    rw [div_le_iff₀ (by linarith), hq]; linarith
  set y := q / p with hy
  have y0 : 0 < y := lt_of_lt_of_le (by positivity) yl
  have a4 := a3.range (K := 20) (le_trans (by norm_num) (by linarith : 0.004 ≤ y))
    (yu.trans (by norm_num))
  have iy : 31 / y ≤ 6.33e6 * i := by
    calc 31 / y ≤ 31 / (0.0000049 * v ^ 2) := by gcongr
      _ = 31 / 0.0000049 * i := by rw [hi]; field_simp
      _ ≤ _ := mul_le_mul_of_nonneg_right (by norm_num) iv.le
  have b1 := (fl_pow27 M hw a4 (by positivity) yu (by linarith)).mono
    (m := 209.3 + 4.78 * nv + 8.5e6 * i) hu.le (by linarith)
  have c1 := ((Ap.exact (u := f.u) (L := 3) (b := 7) (by norm_num) (by norm_num)).mul hp).rnd M hw
    (by norm_num) (by norm_num)
  have c2 := (c1.div hd).rnd M hw (by norm_num) (by norm_num)
  have c3 := (c2.mul b1).rnd M hw (by norm_num) (by linarith)
  have c4 := c3.sqrt.rnd M hw (by norm_num) (by linarith)
  obtain ⟨k1, k2⟩ := range_mono (by norm_num : 3 + 40 + 20 + 30 ≤ 100) c4.mlo c4.mhi
  exact (c4.mono hu.le (by rw [fe]; linarith)).range k1 k2

include hw in
theorem fl_tas2cas {v v' nv h : ℝ} (hv : Ap f.u nv 10 v' v) (hn : 0 ≤ nv) (hn' : nv ≤ 100)
    (v1 : 30 ≤ v) (v2 : v ≤ 400) (h1 : -1000 ≤ h) (h2 : h ≤ 15000) (dT : ℝ) :
    Ap f.u (480 + 3.3 * nv + 2.4e7 / v ^ 2) 120 (tas2cas (flt M) ⟨v'⟩ ⟨h⟩ ⟨dT⟩).val
      (tas2cas np v h dT) := by
  have hu := f.u_pos
  have hh : |h| ≤ 50000 := abs_le.2 ⟨by linarith, by linarith⟩
  have e : (tas2cas (flt M) ⟨v'⟩ ⟨h⟩ ⟨dT⟩).val =
      M.rnd (√(M.rnd (M.rnd (M.rnd (M.rnd 7.0 * M.rnd 101325.0) / M.rnd 1.225) *
        M.rnd (M.power (M.rnd (M.rnd (M.rnd ((pressure (flt M) ⟨h⟩ ⟨dT⟩).val *
          M.rnd (M.power (M.rnd (M.rnd 1.0 + M.rnd (M.rnd (M.rnd
            ((density (flt M) ⟨h⟩ ⟨dT⟩).val * v') * v') /
            M.rnd (M.rnd 7.0 * (pressure (flt M) ⟨h⟩ ⟨dT⟩).val)))) (M.rnd 3.5) - M.rnd 1.0)) /
          M.rnd 101325.0) + M.rnd 1.0)) (M.rnd (M.rnd 2.0 / M.rnd 7.0)) - M.rnd 1.0)))) := rfl
  have e' : tas2cas np v h dT = √(709275 / 1.225 *
      ((1 + pressure np h dT * ((1 + density np h dT * v * v / (7 * pressure np h dT)) ^
        (3.5 : ℝ) - 1) / 101325) ^ (2 / 7 : ℝ) - 1)) := by
    show √(7.0 * 101325.0 / 1.225 *
      ((pressure np h dT * ((1.0 + density np h dT * v * v / (7.0 * pressure np h dT)) ^
        (3.5 : ℝ) - 1.0) / 101325.0 + 1.0) ^ (2.0 / 7.0 : ℝ) - 1.0)) = _
    rw [add_comm (_ / _) (1.0 : ℝ)]
    norm_num
  have r7 : M.rnd (7 * 101325) = 709275 := by
    have := M.rnd_nat hw 709275 (by norm_num)
    norm_num at this ⊢; exact this
  rw [e, e', rnd_7 M hw, rnd_1 M hw, rnd_p0 M hw, rnd_3_5 M hw, rnd_2 M hw, r7,
    add_comm (M.rnd (_ / 101325)) 1]
  have v0 : 0 < v := by linarith
  have sq1 : 900 ≤ v ^ 2 := by nlinarith
  have sq2 : v ^ 2 ≤ 160000 := by nlinarith
  obtain ⟨p1, p2⟩ := pressure_bounds h1 h2 dT
  obtain ⟨d1, d2⟩ := density_bounds h1 h2 dT
  obtain ⟨-, -, t2, t1⟩ := ratio_bounds h1 dT
  have hp := fl_pressure M hw hh dT
  have hd := fl_density M hw hh dT
  have pe : pressure np h dT = density np h dT * 287.05287 * Spec.isaTemp h dT := by
    rw [pressure_eq, temperature_eq]
  set p := pressure np h dT with hpd
  set d := density np h dT with hdd
  set T := Spec.isaTemp h dT with hT
  have p0 : 0 < p := by linarith
  have d0 : 0 < d := by linarith
  have T0 : 0 < T := by linarith
  -- the Mach-like argument
  have x1 := (hd.mul hv).rnd M hw (by norm_num) (by linarith)
  have x2 := (x1.mul hv).rnd M hw (by norm_num) (by linarith)
  have c1 := ((Ap.exact (u := f.u) (L := 3) (b := 7) (by norm_num) (by norm_num)).mul hp).rnd M hw
    (by norm_num) (by norm_num)
  have x3 := ((x2.div c1).rnd M hw (by norm_num) (by linarith)).mono (m := 230 + 2 * nv) hu.le
    (by linarith)
  set x := d * v * v / (7 * p) with hx
  have xe : x = v ^ 2 / (2009.37009 * T) := by
    rw [hx, pe]; field_simp; norm_num
  have xl : v ^ 2 / 622905 ≤ x := by
    rw [xe]; gcongr; linarith
  have xu : x ≤ 0.4156 := by
    rw [xe, div_le_iff₀ (by positivity)]
    linarith
  have x0 : 0.0014 ≤ x := le_trans (by linarith) xl
  have x4 := x3.range (K := 20) (le_trans (by norm_num) x0) (xu.trans (by norm_num))
  have iv : 0 < 1 / v ^ 2 := by positivity
  have iv2 : 1 / v ^ 2 ≤ 1 / 900 := one_div_le_one_div_of_le (by norm_num) sq1
  have fe : ∀ c : ℝ, c / v ^ 2 = c * (1 / v ^ 2) := fun c => by ring
  set i := 1 / v ^ 2 with hi
  have ie : 3.5 / x ≤ 2180200 * i := by
    calc 3.5 / x ≤ 3.5 / (v ^ 2 / 622905) := by gcongr
      _ = 3.5 * 622905 * i := by rw [hi]; field_simp
      _ ≤ _ := mul_le_mul_of_nonneg_right (by norm_num) iv.le
  have a1 := (fl_pow35 M hw x4 (B := 2.84) (by linarith) (by linarith) (by
    calc (1 + x) ^ 3 ≤ (1 + 0.4156) ^ 3 := by gcongr
      _ ≤ 2.84 := by norm_num) (by linarith)).mono (m := 713 + 6.08 * nv + 2180200 * i)
      hu.le (by linarith)
  obtain ⟨w1, w2, w3⟩ := pow35_bounds (by linarith : 0 < x) (by linarith)
  have a2 := (hp.mul a1).rnd M hw (by norm_num) (by linarith)
  set q := p * ((1 + x) ^ (3.5 : ℝ) - 1) with hq
  have ql : 0.07 * v ^ 2 ≤ q := by
    have : p * (3.5 * x) = 0.5 * d * v ^ 2 := by rw [hx]; field_simp; norm_num
    calc 0.07 * v ^ 2 = 0.5 * 0.14 * v ^ 2 := by ring
      _ ≤ 0.5 * d * v ^ 2 := by gcongr
      _ = p * (3.5 * x) := this.symm
      _ ≤ q := mul_le_mul_of_nonneg_left w1 p0.le
  have qu : q ≤ 625000 := by
    calc q ≤ 125000 * (6 - 1) := by
          refine mul_le_mul p2 (by linarith) (by linarith) (by norm_num)
      _ ≤ _ := by norm_num
  have a3 := ((a2.div (Ap.exact (u := f.u) (L := 17) (b := 101325) (by norm_num)
    (by norm_num))).rnd M hw (by norm_num) (by linarith)).mono
    (m := 834.1 + 6.08 * nv + 2180200 * i) hu.le (by linarith)
  have yl : 0.00000069 * v ^ 2 ≤ q / 101325 := by
    rw [le_div_iff₀ (by norm_num)]; linarith
  have yu : q / 101325 ≤ 20 := by
    rw [div_le_iff₀ (by norm_num)]; linarith
  set y := q / 101325 with hy
  have y0 : 0 < y := lt_of_lt_of_le (by positivity) yl
  have a4 := a3.range (K := 20) (le_trans (by norm_num) (by linarith : 0.0006 ≤ y))
    (yu.trans (by norm_num))
  have iy : 31 / y ≤ 4.4928e7 * i := by
    calc 31 / y ≤ 31 / (0.00000069 * v ^ 2) := by gcongr
      _ = 31 / 0.00000069 * i := by rw [hi]; field_simp
      _ ≤ _ := mul_le_mul_of_nonneg_right (by norm_num) iv.le
  have b1 := (fl_pow27 M hw a4 (by positivity) yu (by linarith)).mono
    (m := 948 + 6.52 * nv + 4.73e7 * i) hu.le (by linarith)
  have c2 := ((Ap.exact (u := f.u) (L := 20) (b := 709275) (by norm_num) (by norm_num)).div
    (Ap.lit M hw (L := 1) (b := 1.225) (by norm_num) (by norm_num) (by norm_num))).rnd M hw
    (by norm_num) (by norm_num)
  have c3 := (c2.mul b1).rnd M hw (by norm_num) (by linarith)
  have c4 := c3.sqrt.rnd M hw (by norm_num) (by linarith)
  obtain ⟨k1, k2⟩ := range_mono (by norm_num : 20 + 1 + 30 ≤ 120) c4.mlo c4.mhi
  exact (c4.mono hu.le (by rw [fe]; linarith)).range k1 k2

end Aero
end Verif
