import Verif.Lemmas.FloatCrossover

/-!
# Rounding error of the pressure altitude
-/

namespace Verif
open Real

namespace Aero

variable {f : Format} (M : Machine f) (hw : f.Wide)

include hw in
/-- The exponent `beta * R / g0`. -/
theorem fl_hIsa_exp :
    |M.rnd (M.rnd (-(M.rnd 0.0065) * M.rnd 287.05287) / M.rnd 9.80665) -
      -0.0065 * 287.05287 / 9.80665| ≤ 0.98 * f.u := by
  have a1 := ((Thrust.fl_lit M hw 0.0065 (by norm_num) (by norm_num)).neg.mul hw
    (Thrust.fl_lit M hw 287.05287 (by norm_num) (by norm_num))).rnd M hw (c' := 5.62) (by norm_num)
      (by norm_num) (by norm_num)
  have a2 := Ap.of_abs (L := 1) (k := 3.02) hw a1.neg.err (by norm_num) (by norm_num) (by norm_num)
    (by norm_num) (by norm_num) (by norm_num)
  have a3 := a2.div (Ap.lit M hw (L := 4) (b := 9.80665) (by norm_num) (by norm_num)
    (by norm_num))
  have a4 := (Ab.of_ap hw (B := 0.1903) (c := 0.786) a3 (by norm_num) (by norm_num) (by norm_num)
    (by norm_num)).neg
  rw [neg_div, neg_neg, neg_div, neg_neg] at a4
  exact (a4.rnd M hw (c' := 0.98) (by norm_num) (by norm_num) (by norm_num)).err

include hw in
/-- The temperature at sea level. -/
theorem fl_hIsa_T0 {dT : ℝ} (hd : |dT| ≤ 100) :
    Ab f 676.4 388.15 (M.rnd (M.rnd 288.15 + dT)) (288.15 + dT) :=
  (((Thrust.fl_lit M hw 288.15 (by norm_num) (by norm_num)).add
    (Ab.exact (f := f) hd)).rnd M hw (c' := 676.4) (by norm_num) (by norm_num) (by norm_num)).le
    ((abs_add_le _ _).trans (by norm_num; linarith))

include hw in
/-- The reciprocal of a positive literal. -/
theorem fl_inv_lit {c B k : ℝ} {L : ℕ} (h1 : (2 : ℝ) ^ (-L : ℤ) ≤ c) (h2 : c ≤ (2 : ℝ) ^ (L : ℤ))
    (hL : L ≤ 100) (hB : 1 / c ≤ B) (hk : 1.01 * 1.01 * B ≤ k) :
    Ab f k B (1 / M.rnd c) (1 / c) := by
  have a1 := (Ap.exact (u := f.u) (L := 1) (b := 1) (by norm_num) (by norm_num)).div
    (Ap.lit M hw h1 h2 (by omega))
  exact Ab.of_ap hw a1 (by norm_num) (by norm_num) hB (by linarith)

/-- The two ends of the tropospheric power. -/
theorem hIsa_pow {b : ℝ} (h1 : 0.84 ≤ b) (h2 : b ≤ 4.48) :
    0.2 ≤ b ^ (-0.0065 * 287.05287 / 9.80665 : ℝ) ∧
      b ^ (-0.0065 * 287.05287 / 9.80665 : ℝ) ≤ 1.2 := by
  have b0 : 0 < b := by linarith
  constructor
  · calc (0.2 : ℝ) ≤ (4.48 : ℝ) ^ (-1 : ℝ) := by rw [rpow_neg_one]; norm_num
      _ ≤ (4.48 : ℝ) ^ (-0.0065 * 287.05287 / 9.80665 : ℝ) :=
          rpow_le_rpow_of_exponent_le (by norm_num) (by norm_num)
      _ ≤ _ := rpow_le_rpow_of_nonpos b0 h2 (by norm_num)
  · calc b ^ (-0.0065 * 287.05287 / 9.80665 : ℝ)
        ≤ (0.84 : ℝ) ^ (-0.0065 * 287.05287 / 9.80665 : ℝ) :=
          rpow_le_rpow_of_nonpos (by norm_num) h1 (by norm_num)
      _ ≤ (0.84 : ℝ) ^ (-1 : ℝ) :=
          rpow_le_rpow_of_exponent_ge (by norm_num) (by norm_num) (by norm_num)
      _ ≤ 1.2 := by rw [rpow_neg_one]; norm_num

include hw in
/-- The tropospheric branch. -/
theorem fl_hIsa_trop {p dT : ℝ} (h1 : 22630 ≤ p) (h2 : p ≤ 120000) (hd : |dT| ≤ 100) :
    |M.rnd (M.rnd (M.rnd (M.rnd (M.rnd 288.15 + dT) * M.power (M.rnd (M.rnd 101325.0 / p))
          (M.rnd (M.rnd (-(M.rnd 0.0065) * M.rnd 287.05287) / M.rnd 9.80665))) -
          M.rnd (M.rnd 288.15 + dT)) / -(M.rnd 0.0065)) -
      ((288.15 + dT) * (101325.0 / p) ^ (-0.0065 * 287.05287 / 9.80665 : ℝ) - (288.15 + dT)) /
        -0.0065| ≤ 1.22e6 * f.u := by
  have hu := f.u_pos
  have p0 : 0 < p := by linarith
  have b1 : 0.84 ≤ 101325.0 / p := by rw [le_div_iff₀ p0]; norm_num; linarith
  have b2 : 101325.0 / p ≤ 4.48 := by rw [div_le_iff₀ p0]; norm_num; linarith
  have a1 := ((Ap.lit M hw (L := 17) (b := 101325.0) (by norm_num) (by norm_num)
    (by norm_num)).div (Ap.exact (u := f.u) (L := 17) (b := p) (le_trans (by norm_num) h1)
      (h2.trans (by norm_num)))).rnd M hw (by norm_num) (by norm_num)
  have a2 := a1.range (K := 3) (le_trans (by norm_num) b1) (b2.trans (by norm_num))
  obtain ⟨w1, w2⟩ := hIsa_pow b1 b2
  have l1 : |log (101325.0 / p)| ≤ 2.08 := a2.log_le.trans (by
    have := log_two_lt_d9
    push_cast; linarith)
  have q1 := a2.rpow (K := 3) (l := 2.08) (q := 0.1903) (k := 0.98)
    (by rw [abs_of_neg (by norm_num)]; norm_num) (fl_hIsa_exp M hw) l1 hu.le (by norm_num)
    (by have := hw.u_le'; norm_num; linarith) (le_trans (by norm_num) w1)
    (w2.trans (by norm_num))
  have q2 := (q1.lib (M.power_acc _ _ a2.pos') hw (by norm_num) (by norm_num)).mono
    (m := 10.6) hu.le (by norm_num)
  have q3 := Ab.of_ap hw (B := 1.2) (c := 12.9) q2 (by norm_num) (by norm_num) w2 (by norm_num)
  have t0 := fl_hIsa_T0 M hw hd
  have q4 := (t0.mul hw q3).rnd M hw (c' := 6290) (by norm_num) (by norm_num) (by norm_num)
  have q5 := ((q4.sub t0).le (B' := 311) (by
    rw [← mul_sub_one, abs_mul]
    calc _ ≤ 388.15 * (0.8 : ℝ) := mul_le_mul t0.bound (abs_le.2 ⟨by linarith, by linarith⟩)
          (abs_nonneg _) (by norm_num)
      _ ≤ 311 := by norm_num)).rnd M hw (c' := 7280) (by norm_num) (by norm_num) (by norm_num)
  have q6 := (q5.mul hw (fl_inv_lit M hw (c := 0.0065) (B := 153.85) (k := 157) (L := 8)
    (by norm_num) (by norm_num) (by norm_num) (by norm_num) (by norm_num)).neg).rnd M hw
    (c' := 1.22e6) (by norm_num) (by norm_num) (by norm_num)
  have e : ∀ x y : ℝ, x * -(1 / y) = x / -y := fun x y => by
    rw [div_neg, mul_neg, mul_one_div]
  rw [e, e] at q6
  exact q6.err

include hw in
/-- The stratospheric branch. -/
theorem fl_hIsa_strat {p dT : ℝ} (h1 : 1000 ≤ p) (h2 : p ≤ 22630) (hd : |dT| ≤ 100) :
    |M.rnd (M.rnd (M.rnd (M.rnd (-(M.rnd 287.05287) *
          M.rnd (M.rnd (M.rnd 288.15 + dT) + M.rnd (-(M.rnd 0.0065) * 11000))) / M.rnd 9.80665) *
          M.log (M.rnd (p / 22630))) + 11000) -
      (-287.05287 * (288.15 + dT + -0.0065 * 11000) / 9.80665 * log (p / 22630) + 11000)| ≤
      6e5 * f.u := by
  have hu := f.u_pos
  obtain ⟨d1, d2⟩ := abs_le.1 hd
  have t1 := ((Thrust.fl_lit M hw 0.0065 (by norm_num) (by norm_num)).neg.mul hw
    (Ab.exact (f := f) (b := 11000) (B := 11000) (by norm_num))).rnd M hw (c' := 143.2)
      (by norm_num) (by norm_num) (by norm_num)
  have t2 := (((fl_hIsa_T0 M hw hd).add t1).le (B' := 316.65)
    (abs_le.2 ⟨by linarith, by linarith⟩)).rnd M hw (c' := 1136.4) (by norm_num) (by norm_num)
      (by norm_num)
  have t3 := ((Thrust.fl_lit M hw 287.05287 (by norm_num) (by norm_num)).neg.mul hw t2).rnd M hw
    (c' := 508100) (by norm_num) (by norm_num) (by norm_num)
  have t4 := (t3.mul hw (fl_inv_lit M hw (c := 9.80665) (B := 0.101972) (k := 0.10403) (L := 4)
    (by norm_num) (by norm_num) (by norm_num) (by norm_num) (by norm_num))).rnd M hw
    (c' := 70600) (by norm_num) (by norm_num) (by norm_num)
  rw [mul_one_div, mul_one_div] at t4
  have b1 : (2 : ℝ) ^ (-5 : ℤ) ≤ p / 22630 := by rw [le_div_iff₀ (by norm_num)]; norm_num; linarith
  have b2 : p / 22630 ≤ (2 : ℝ) ^ (5 : ℤ) := by rw [div_le_iff₀ (by norm_num)]; norm_num; linarith
  have r1 := (Ap.exact (u := f.u) (L := 5) (b := p / 22630) b1 b2).rnd M hw (by norm_num)
    (by norm_num)
  have l1 : |log (p / 22630)| ≤ 3.47 := r1.log_le.trans (by
    have := log_two_lt_d9
    push_cast; linarith)
  have r2 : Ab f (1.01 + 27.8) 3.47 (M.log (M.rnd (p / 22630))) (log (p / 22630)) :=
    ⟨(M.log_acc _ r1.pos').abs_add hw (c := 1.01) (by have := r1.log_err; rwa [zero_add] at this) l1
      (by norm_num) (by norm_num) (by norm_num), l1⟩
  have r3 := (t4.mul hw r2).rnd M hw (c' := 545000) (by norm_num) (by norm_num) (by norm_num)
  exact ((r3.add (Ab.exact (f := f) (b := 11000) (B := 11000) (by norm_num))).rnd M hw (c' := 6e5)
    (by norm_num) (by norm_num) (by norm_num)).err

include hw in
theorem fl_hIsa {p dT : ℝ} (h1 : 1000 ≤ p) (h2 : p ≤ 120000) (hd : |dT| ≤ 100) :
    |(hIsa (flt M) ⟨p⟩ ⟨dT⟩).val - hIsa np p dT| ≤ 1.22e6 * f.u := by
  have c1 : M.rnd 22630.0 = 22630 := by
    have := M.rnd_nat hw 22630 (by norm_num)
    norm_num at this ⊢; exact this
  have c2 : M.rnd 11000.0 = 11000 := by
    have := M.rnd_nat hw 11000 (by norm_num)
    norm_num at this ⊢; exact this
  have n1 : (22630.0 : ℝ) = 22630 := by norm_num
  have n2 : (11000.0 : ℝ) = 11000 := by norm_num
  by_cases hp : 22630 < p
  · have e : hIsa np p dT = ((288.15 + dT) * (101325.0 / p) ^
        (-0.0065 * 287.05287 / 9.80665 : ℝ) - (288.15 + dT)) / -0.0065 :=
      if_pos (show p > 22630.0 by rw [n1]; exact hp)
    have e' : (hIsa (flt M) ⟨p⟩ ⟨dT⟩).val =
        M.rnd (M.rnd (M.rnd (M.rnd (M.rnd 288.15 + dT) * M.power (M.rnd (M.rnd 101325.0 / p))
          (M.rnd (M.rnd (-(M.rnd 0.0065) * M.rnd 287.05287) / M.rnd 9.80665))) -
          M.rnd (M.rnd 288.15 + dT)) / -(M.rnd 0.0065)) :=
      congrArg Fl.val (if_pos (show p > M.rnd 22630.0 by rw [c1]; exact hp))
    rw [e, e']
    exact fl_hIsa_trop M hw hp.le h2 hd
  · have e : hIsa np p dT = -287.05287 * (288.15 + dT + -0.0065 * 11000.0) / 9.80665 *
        log (p / 22630.0) + 11000.0 :=
      if_neg (show ¬ p > 22630.0 by rw [n1]; exact hp)
    have e' : (hIsa (flt M) ⟨p⟩ ⟨dT⟩).val =
        M.rnd (M.rnd (M.rnd (M.rnd (-(M.rnd 287.05287) *
          M.rnd (M.rnd (M.rnd 288.15 + dT) + M.rnd (-(M.rnd 0.0065) * M.rnd 11000.0))) /
          M.rnd 9.80665) * M.log (M.rnd (p / M.rnd 22630.0))) + M.rnd 11000.0) :=
      congrArg Fl.val (if_neg (show ¬ p > M.rnd 22630.0 by rw [c1]; exact hp))
    rw [e, e', c1, c2, n1, n2]
    exact (fl_hIsa_strat M hw h1 (not_lt.1 hp) hd).trans
      (mul_le_mul_of_nonneg_right (by norm_num) f.u_pos.le)

end Aero
end Verif
