import Verif.Lemmas.FloatCas
import Verif.Lemmas.FloatThrust

/-!
# Rounding error of the crossover altitude
-/

namespace Verif
open Real

namespace Aero

variable {f : Format} (M : Machine f) (hw : f.Wide)

include hw in
/-- The exponent `-1 * R * beta / g0`. -/
theorem fl_cross_exp :
    |M.rnd (M.rnd (M.rnd (-(M.rnd 1.0) * M.rnd 287.05287) * -(M.rnd 0.0065)) / M.rnd 9.80665) -
      -1 * 287.05287 * -0.0065 / 9.80665| ≤ 1.18 * f.u := by
  have hu := f.u_pos
  rw [rnd_1 M hw]
  have a1 := (((Ab.exact (f := f) (B := 1) (b := -1) (by norm_num)).mul hw
    (Thrust.fl_lit M hw 287.05287 (by norm_num) (by norm_num))).rnd M hw (c' := 574.2) (by norm_num)
      (by norm_num) (by norm_num))
  have a2 := (a1.mul hw (Thrust.fl_lit M hw 0.0065 (by norm_num) (by norm_num)).neg).rnd M hw
    (c' := 7.5) (by norm_num) (by norm_num) (by norm_num)
  have a3 := Ap.of_abs (L := 1) (k := 4.03) hw a2.err (by norm_num) (by norm_num) (by norm_num)
    (by norm_num) (by norm_num) (by norm_num)
  have a4 := (a3.div (Ap.lit M hw (L := 4) (b := 9.80665) (by norm_num) (by norm_num)
    (by norm_num))).rnd M hw (by norm_num) (by norm_num)
  exact (Ab.of_ap hw (B := 0.1903) (c := 1.18) a4 (by norm_num) (by norm_num) (by norm_num)
    (by norm_num)).err

include hw in
/-- The factor `(T0 + dT) / beta`. -/
theorem fl_cross_factor {dT : ℝ} (hd : |dT| ≤ 100) :
    Ab f 340300 59716 (M.rnd (M.rnd (M.rnd 288.15 + dT) / -(M.rnd 0.0065)))
      ((288.15 + dT) / -0.0065) := by
  obtain ⟨d1, d2⟩ := abs_le.1 hd
  have a1 := ((Thrust.fl_lit M hw 288.15 (by norm_num) (by norm_num)).add
    (Ab.exact (f := f) hd)).rnd M hw (c' := 676.4) (by norm_num) (by norm_num) (by norm_num)
  have a2 := Ap.of_abs (L := 9) (k := 3.6) hw a1.err (by linarith) (by linarith) (by norm_num)
    (by norm_num) (by norm_num; linarith) (by norm_num; linarith)
  have a3 := a2.div (Ap.lit M hw (L := 8) (b := 0.0065) (by norm_num) (by norm_num)
    (by norm_num))
  have a4 := (Ab.of_ap hw (B := 59716) (c := 280500) a3 (by norm_num) (by norm_num)
    (by rw [div_le_iff₀ (by norm_num)]; norm_num; linarith) (by norm_num)).neg
  have a5 := a4.rnd M hw (c' := 340300) (by norm_num) (by norm_num) (by norm_num)
  rw [div_neg, div_neg]
  exact a5

set_option maxHeartbeats 800000 in
include hw in
theorem fl_crossover {v v' nv m m' nm dT : ℝ} (hv : Ap f.u nv 9 v' v) (hm : Ap f.u nm 4 m' m)
    (nv0 : 0 ≤ nv) (nv1 : nv ≤ 100) (nm0 : 0 ≤ nm) (nm1 : nm ≤ 100) (v1 : 30 ≤ v) (v2 : v ≤ 400)
    (m1 : 0.1 ≤ m) (m2 : m ≤ 1) (hd : |dT| ≤ 100) :
    |(crossoverAlt (flt M) ⟨v'⟩ ⟨m'⟩ ⟨dT⟩).val - crossoverAlt np v m dT| ≤
      (8.8e6 + 9.5e10 / v ^ 2 + 8.3e5 / m ^ 2 + 209000 * nv + 175000 * nm) * f.u := by
  have hu := f.u_pos
  have e : (crossoverAlt (flt M) ⟨v'⟩ ⟨m'⟩ ⟨dT⟩).val =
      M.rnd (M.rnd (M.rnd (M.rnd 288.15 + dT) / -(M.rnd 0.0065)) *
        M.rnd (M.power (M.rnd (
          M.rnd (M.power (M.rnd (M.rnd (M.rnd 0.2 * M.powi (M.rnd (v' / M.rnd 340.293988)) 2) +
            M.rnd 1.0)) (M.rnd 3.5) - M.rnd 1.0) /
          M.rnd (M.power (M.rnd (M.rnd (M.rnd 0.2 * M.powi (max m' (M.rnd 1e-4)) 2) +
            M.rnd 1.0)) (M.rnd 3.5) - M.rnd 1.0)))
          (M.rnd (M.rnd (M.rnd (-(M.rnd 1.0) * M.rnd 287.05287) * -(M.rnd 0.0065)) /
            M.rnd 9.80665)) - M.rnd 1.0)) := rfl
  have mm : max m (1e-4 : ℝ) = m := max_eq_left (le_trans (by norm_num) m1)
  have e' : crossoverAlt np v m dT = (288.15 + dT) / -0.0065 *
      ((((1 + 0.2 * (v / 340.293988) ^ 2) ^ (3.5 : ℝ) - 1) /
        ((1 + 0.2 * m ^ 2) ^ (3.5 : ℝ) - 1)) ^ (-1 * 287.05287 * -0.0065 / 9.80665 : ℝ) - 1) := by
    show (288.15 + dT) / -0.0065 *
      ((((0.2 * (v / 340.293988) ^ 2 + 1.0) ^ (3.5 : ℝ) - 1.0) /
        ((0.2 * (max m (1e-4 : ℝ)) ^ 2 + 1.0) ^ (3.5 : ℝ) - 1.0)) ^
          (-1.0 * 287.05287 * -0.0065 / 9.80665 : ℝ) - 1.0) = _
    rw [mm, show (1.0 : ℝ) = 1 by norm_num, add_comm _ (1 : ℝ), add_comm _ (1 : ℝ)]
  have m0 : max m' (M.rnd 1e-4) = m' := by
    have hr := (abs_le.1 (hm.rel nm0 hu.le (by have := hw.u_le'; nlinarith))).1
    have hr2 : nm * f.u ≤ 1 / 100 := by have := hw.u_le'; nlinarith
    have hr3 : 0.05 ≤ m' := by nlinarith
    refine max_eq_left (le_trans ?_ hr3)
    have := (Thrust.fl_lit M hw 1e-4 (by norm_num) (by norm_num)).err
    have h2 := hw.u_le'
    have := (abs_le.1 this).2
    norm_num at this ⊢
    linarith
  have hE := fl_cross_exp M hw
  rw [rnd_1 M hw] at hE
  rw [e, e', m0, rnd_1 M hw, rnd_3_5 M hw, add_comm _ (1 : ℝ), add_comm _ (1 : ℝ)]
  have v0 : 0 < v := by linarith
  have p0 : 0 < m := by linarith
  have sv1 : 900 ≤ v ^ 2 := by nlinarith
  have sv2 : v ^ 2 ≤ 160000 := by nlinarith
  have sm1 : 0.01 ≤ m ^ 2 := by nlinarith
  have sm2 : m ^ 2 ≤ 1 := by nlinarith
  have fifth := Ap.lit M hw (L := 3) (b := 0.2) (by norm_num) (by norm_num) (by norm_num)
  -- the Mach number of the airspeed at sea level
  have x1 := ((hv.div (Ap.lit M hw (L := 9) (b := 340.293988) (by norm_num) (by norm_num)
    (by norm_num))).rnd M hw (by norm_num) (by linarith))
  have x2 := (x1.npow 2).lib (M.powi_acc _ _) hw (by norm_num) (by push_cast; linarith)
  have x3 := ((fifth.mul x2).rnd M hw (by norm_num) (by push_cast; linarith)).mono
    (m := 14.2 + 2 * nv) hu.le (by push_cast; linarith)
  set x := 0.2 * (v / 340.293988) ^ 2 with hx
  have xe : x = 0.2 / 340.293988 ^ 2 * v ^ 2 := by rw [hx]; ring
  have xl : 0.00155 ≤ x := by rw [xe]; norm_num; linarith
  have xu : x ≤ 0.2764 := by rw [xe]; norm_num; linarith
  have x4 := x3.range (K := 20) (le_trans (by norm_num) xl) (xu.trans (by norm_num))
  have y2 := (hm.npow 2).lib (M.powi_acc _ _) hw (by norm_num) (by push_cast; linarith)
  have y3 := ((fifth.mul y2).rnd M hw (by norm_num) (by push_cast; linarith)).mono
    (m := 10.2 + 2 * nm) hu.le (by push_cast; linarith)
  set y := 0.2 * m ^ 2 with hy
  have yl : 0.002 ≤ y := by rw [hy]; linarith
  have yu : y ≤ 0.2 := by rw [hy]; linarith
  have y4 := y3.range (K := 20) (le_trans (by norm_num) yl) (yu.trans (by norm_num))
  have iv : 0 < 1 / v ^ 2 := by positivity
  have iv2 : 1 / v ^ 2 ≤ 1 / 900 := one_div_le_one_div_of_le (by norm_num) sv1
  have im : 0 < 1 / m ^ 2 := by positivity
  have im2 : 1 / m ^ 2 ≤ 1 / 0.01 := one_div_le_one_div_of_le (by norm_num) sm1
  have ie : 3.5 / x ≤ 2026501 * (1 / v ^ 2) := by
    rw [xe, show (3.5 : ℝ) / (0.2 / 340.293988 ^ 2 * v ^ 2) =
      3.5 * 340.293988 ^ 2 / 0.2 * (1 / v ^ 2) by field_simp]
    exact mul_le_mul_of_nonneg_right (by norm_num) iv.le
  have je : 3.5 / y = 17.5 * (1 / m ^ 2) := by rw [hy]; field_simp; norm_num
  rw [show 9.5e10 / v ^ 2 = 9.5e10 * (1 / v ^ 2) by ring,
    show 8.3e5 / m ^ 2 = 8.3e5 * (1 / m ^ 2) by ring]
  set i := 1 / v ^ 2 with hi
  set j := 1 / m ^ 2 with hj
  have N1 := (fl_pow35 M hw x4 (B := 2.08) (by linarith) (by linarith) (by
    calc (1 + x) ^ 3 ≤ (1 + 0.2764) ^ 3 := by gcongr
      _ ≤ 2.08 := by norm_num) (by norm_num; linarith)).mono (m := 45.7 + 2026501 * i + 4.46 * nv) hu.le
      (by linarith)
  have D1 := (fl_pow35 M hw y4 (B := 1.73) (by linarith) (by linarith) (by
    calc (1 + y) ^ 3 ≤ (1 + 0.2) ^ 3 := by gcongr
      _ ≤ 1.73 := by norm_num) (by rw [je]; norm_num; linarith)).mono (m := 32.9 + 17.5 * j + 3.71 * nm) hu.le
      (by rw [je]; linarith)
  obtain ⟨w1, -, -⟩ := pow35_bounds (by linarith : 0 < x) (by linarith)
  obtain ⟨z1, z2, -⟩ := pow35_bounds (by linarith : 0 < y) (by linarith)
  have w4 : (1 + x) ^ (3.5 : ℝ) ≤ 2.35 := by
    calc (1 + x) ^ (3.5 : ℝ) ≤ (1.2764 : ℝ) ^ (3.5 : ℝ) :=
          rpow_le_rpow (by linarith) (by linarith) (by norm_num)
      _ ≤ 2.35 := by
          rw [show (3.5 : ℝ) = (7 : ℕ) * (1 / 2) by norm_num, rpow_mul (by norm_num),
            rpow_natCast, ← sqrt_eq_rpow]
          exact sqrt_le_iff.2 ⟨by norm_num, by norm_num⟩
  have z4 : (1 + y) ^ (3.5 : ℝ) ≤ 2.08 := z2.trans (by
    calc (1 + y) ^ 4 ≤ (1 + 0.2) ^ 4 := by gcongr
      _ ≤ 2.08 := by norm_num)
  have d1 := (N1.div D1).rnd M hw (by norm_num) (by linarith)
  set N := (1 + x) ^ (3.5 : ℝ) - 1 with hN
  set D := (1 + y) ^ (3.5 : ℝ) - 1 with hD
  have D0 : 0 < D := by linarith
  have d2 := (d1.range (K := 8) (by rw [le_div_iff₀ D0]; norm_num; linarith)
    (by rw [div_le_iff₀ D0]; norm_num; linarith)).mono 
    (m := 79.7 + 2026501 * i + 17.5 * j + 4.46 * nv + 3.71 * nm) hu.le
    (by linarith)
  set δ := N / D with hδ
  have l1 : |log δ| ≤ 5.6 := d2.log_le.trans (by
    have := log_two_lt_d9
    push_cast; linarith)
  have δ0 : 0 < δ := d2.pos
  set k : ℝ := -1 * 287.05287 * -0.0065 / 9.80665 with hk
  have k0 : 0 ≤ k := by rw [hk]; norm_num
  have k1 : k ≤ 1 / 4 := by rw [hk]; norm_num
  have k2 : |k| ≤ 0.1903 := by rw [abs_of_nonneg k0, hk]; norm_num
  have e256 : ((2 : ℝ) ^ (8 : ℝ)) ^ (1 / 4 : ℝ) = 4 := by
    rw [← rpow_mul (by norm_num), show (8 * (1 / 4) : ℝ) = (2 : ℕ) by norm_num, rpow_natCast]
    norm_num
  have hi4 : δ ^ k ≤ 4 := by
    have h1 : δ ≤ (2 : ℝ) ^ (8 : ℝ) := by
      have := d2.mhi
      rw [← rpow_intCast] at this
      norm_num at this ⊢; exact this
    calc δ ^ k ≤ ((2 : ℝ) ^ (8 : ℝ)) ^ k := rpow_le_rpow δ0.le h1 k0
      _ ≤ ((2 : ℝ) ^ (8 : ℝ)) ^ (1 / 4 : ℝ) :=
          rpow_le_rpow_of_exponent_le (one_le_rpow (by norm_num) (by norm_num)) k1
      _ = 4 := e256
  have lo4 : 1 / 4 ≤ δ ^ k := by
    have h1 : (2 : ℝ) ^ (-8 : ℝ) ≤ δ := by
      have := d2.mlo
      rw [← rpow_intCast] at this
      norm_num at this ⊢; exact this
    calc (1 / 4 : ℝ) = ((2 : ℝ) ^ (-8 : ℝ)) ^ (1 / 4 : ℝ) := by
          rw [rpow_neg (by norm_num), inv_rpow (by positivity), e256]; norm_num
      _ ≤ ((2 : ℝ) ^ (-8 : ℝ)) ^ k :=
          rpow_le_rpow_of_exponent_ge (by positivity)
            (rpow_le_one_of_one_le_of_nonpos (by norm_num) (by norm_num)) k1
      _ ≤ _ := rpow_le_rpow (by positivity) h1 k0
  have q1 := d2.rpow (K := 2) (l := 5.6) (q := 0.1903) (k := 1.18) k2 hE l1 hu.le (by norm_num)
    (by have := hw.u_le'; norm_num; linarith) (le_trans (by norm_num) lo4)
    (hi4.trans (by norm_num))
  have q2 := (q1.lib (M.power_acc _ _ d2.pos') hw (by norm_num) (by linarith)).mono
    (m := 30 + 387700 * i + 3.35 * j + 0.86 * nv + 0.72 * nm) hu.le (by linarith)
  have q3 := Ab.of_ap hw (B := 4) (c := 121.3 + 1566400 * i + 13.54 * j + 3.48 * nv + 2.91 * nm) q2 (by positivity)
    (by linarith) hi4 (by linarith)
  have q3a : ∀ t : ℝ, 1 / 4 ≤ t → t ≤ 4 → |t - 1| ≤ 3 := fun t t1 t2 =>
    abs_le.2 ⟨by linarith, by linarith⟩
  have q3b : |δ ^ k - 1| ≤ 3 := q3a _ lo4 hi4
  have q4 := ((q3.sub (Ab.exact (f := f) (B := 1) (b := 1) (by norm_num))).le (B' := 3)
    q3b).rnd M hw (c' := 124.5 + 1566500 * i + 13.55 * j + 3.49 * nv + 2.915 * nm)
    (by linarith) (by norm_num) (by linarith)
  have q5 := ((fl_cross_factor M hw hd).mul hw q4).rnd M hw
    (c' := 8.8e6 + 9.5e10 * i + 8.3e5 * j + 209000 * nv + 175000 * nm) (by linarith) (by norm_num) (by linarith)
  exact q5.err

end Aero
end Verif
