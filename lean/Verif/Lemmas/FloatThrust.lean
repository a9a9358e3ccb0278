import Verif.Lemmas.FloatDrag

/-!
# Take-off thrust in floating point
-/

namespace Verif
open Real

/-- `a` is `b` up to `c` unit roundoffs, and `b` is at most `B` in magnitude. -/
structure Ab (f : Format) (c B a b : ℝ) : Prop where
  err : |a - b| ≤ c * f.u
  bound : |b| ≤ B

namespace Ab
variable {f : Format} (M : Machine f) {c c' B B' a b a' b' : ℝ}

theorem nonneg (h : Ab f c B a b) : 0 ≤ c :=
  nonneg_of_mul_nonneg_left ((abs_nonneg _).trans h.err) f.u_pos

theorem exact (h : |b| ≤ B) : Ab f 0 B b b := ⟨by simp, h⟩

theorem mono (h : Ab f c B a b) (hc : c ≤ c') : Ab f c' B a b :=
  ⟨h.err.trans (mul_le_mul_of_nonneg_right hc f.u_pos.le), h.bound⟩

theorem of_ap (hw : f.Wide) {n : ℝ} {L : ℕ} (h : Ap f.u n L a b) (hn : 0 ≤ n) (hs : n ≤ 60000)
    (hB : b ≤ B) (hc : 1.01 * n * B ≤ c) : Ab f c B a b := by
  have hu := f.u_pos
  have p := h.pos
  have := h.rel hn hu.le (by have := hw.u_le'; nlinarith)
  refine ⟨this.trans ?_, by rwa [abs_of_pos p]⟩
  calc 1.01 * n * f.u * b ≤ 1.01 * n * f.u * B := by gcongr
    _ = 1.01 * n * B * f.u := by ring
    _ ≤ _ := by gcongr

theorem rnd (hw : f.Wide) (h : Ab f c B a b) (hc : c ≤ 10 ^ 12) (hB : B ≤ 10 ^ 12)
    (hk : c + (B + c / 1000000 + 1 / 1000000) ≤ c') : Ab f c' B (M.rnd a) b :=
  ⟨(M.rnd_abs hw h.err h.bound hc hB le_rfl).trans
    (mul_le_mul_of_nonneg_right hk f.u_pos.le), h.bound⟩

theorem lib (hw : f.Wide) {z : ℝ} (hz : f.Acc z a) (h : Ab f c B a b) (hc : c ≤ 10 ^ 12)
    (hB : B ≤ 10 ^ 12) (hk : c + 8 * (B + c / 1000000 + 1 / 1000000) ≤ c') : Ab f c' B z b :=
  ⟨(hz.abs_add hw h.err h.bound hc hB le_rfl).trans
    (mul_le_mul_of_nonneg_right hk f.u_pos.le), h.bound⟩

theorem add (h : Ab f c B a b) (h' : Ab f c' B' a' b') :
    Ab f (c + c') (B + B') (a + a') (b + b') := by
  refine ⟨?_, (abs_add_le _ _).trans (add_le_add h.bound h'.bound)⟩
  rw [add_sub_add_comm, add_mul]
  exact (abs_add_le _ _).trans (add_le_add h.err h'.err)

theorem neg (h : Ab f c B a b) : Ab f c B (-a) (-b) := by
  refine ⟨?_, by rw [abs_neg]; exact h.bound⟩
  rw [neg_sub_neg, abs_sub_comm]
  exact h.err

theorem sub (h : Ab f c B a b) (h' : Ab f c' B' a' b') :
    Ab f (c + c') (B + B') (a - a') (b - b') := by
  simpa [sub_eq_add_neg] using h.add h'.neg

theorem mul (hw : f.Wide) (h : Ab f c B a b) (h' : Ab f c' B' a' b') :
    Ab f (c * (B' + c' / 16000000) + B * c') (B * B') (a * a') (b * b') := by
  have hu := f.u_pos
  have n' := h'.nonneg
  have n := h.nonneg
  have B0 := (abs_nonneg _).trans h.bound
  have B0' := (abs_nonneg _).trans h'.bound
  refine ⟨?_, by rw [abs_mul]; exact mul_le_mul h.bound h'.bound (abs_nonneg _) B0⟩
  have e : |a'| ≤ B' + c' / 16000000 := by
    calc |a'| = |(a' - b') + b'| := by ring_nf
      _ ≤ |a' - b'| + |b'| := abs_add_le _ _
      _ ≤ c' * f.u + B' := add_le_add h'.err h'.bound
      _ ≤ c' * (1 / 16000000) + B' := by have := hw.u_le'; gcongr
      _ = _ := by ring
  calc |a * a' - b * b'| = |(a - b) * a' + b * (a' - b')| := by ring_nf
    _ ≤ |a - b| * |a'| + |b| * |a' - b'| := by
        refine (abs_add_le _ _).trans (le_of_eq ?_)
        rw [abs_mul, abs_mul]
    _ ≤ c * f.u * (B' + c' / 16000000) + B * (c' * f.u) := by
        refine add_le_add (mul_le_mul h.err e (abs_nonneg _) (by positivity))
          (mul_le_mul h.bound h'.err (abs_nonneg _) B0)
    _ = _ := by ring

/-- A sharper bound on the exact value. -/
theorem le (h : Ab f c B a b) (hB : |b| ≤ B') : Ab f c B' a b := ⟨h.err, hB⟩

end Ab

namespace Aero
open Verif.Spec
variable {f : Format} (M : Machine f) (hw : f.Wide)

include hw in
/-- Pressure at an altitude in feet. -/
theorem fl_pressure_ft {alt : ℝ} (h1 : -1000 ≤ alt * 0.3048) (h2 : alt * 0.3048 ≤ 15000) (dT : ℝ) :
    Ap f.u 129.3 17 (pressure (flt M) ⟨M.rnd (alt * M.rnd 0.3048)⟩ ⟨dT⟩).val
      (pressure np (alt * 0.3048) dT) := by
  have hu := f.u_pos
  obtain ⟨d1, d2⟩ := pressure_bounds h1 h2 dT
  have a1 := fl_pressure M hw (feet_range M hw h1 h2) dT
  have a2 : Ap f.u 10.3 17 (pressure np (M.rnd (alt * M.rnd 0.3048)) dT)
      (pressure np (alt * 0.3048) dT) := by
    refine Ap.of_log a1.pos (by linarith) ?_ (le_trans (by norm_num) d1)
      (d2.trans (by norm_num))
    have e : ∀ h, log (pressure np h dT) =
        log (density np h dT) + log 287.05287 + log (isaTemp h dT) := by
      intro h
      have hd := density_pos h dT
      have ht := temp_pos h dT
      rw [pressure_eq, temperature_eq, log_mul (by positivity) ht.ne',
        log_mul hd.ne' (by norm_num)]
    rw [e, e]
    have l1 := density_log_lip (M.rnd (alt * M.rnd 0.3048)) (alt * 0.3048) dT
    have l2 := temp_log_lip (M.rnd (alt * M.rnd 0.3048)) (alt * 0.3048) dT
    have l3 := fl_feet M hw h1 h2
    generalize M.rnd (alt * M.rnd 0.3048) = z at *
    obtain ⟨p1, p2⟩ := abs_le.1 l1
    obtain ⟨q1, q2⟩ := abs_le.1 l2
    exact abs_le.2 ⟨by linarith, by linarith⟩
  exact (a1.trans a2).mono hu.le (by norm_num)

end Aero

namespace Thrust
open Verif.Aero
variable {f : Format} (M : Machine f) (hw : f.Wide) (e : Params ℝ)

include hw

theorem fl_lit (c : ℝ) (h0 : 0 ≤ c) (hc : c ≤ 10 ^ 11) : Ab f (c + 0.00001) c (M.rnd c) c :=
  have h : |c| ≤ c := (abs_of_nonneg h0).le
  ⟨lit_abs M hw h hc, h⟩

/-- The thrust ratio at take-off, from Mach number and pressure ratio. -/
theorem fl_takeoffRatio (hb0 : 0 ≤ e.bpr) (hb1 : e.bpr ≤ 15) {m m' d d' : ℝ}
    (hm : Ab f 13 0.75 m' m) (hd : Ap f.u 131 5 d' d) (hd1 : d ≤ 1.24) :
    Ab f 2850 3.5 (takeoffRatio (flt M) (Fl.thrust M e) ⟨m'⟩ ⟨d'⟩).val
      (takeoffRatio np e m d) := by
  have hu := f.u_pos
  have l := fl_lit M hw
  have d0 := hd.pos
  have one := rnd_1 M hw
  -- the coefficient of the Mach number
  have b1 := (Ap.exact (u := f.u) (L := 4) (b := 1 + e.bpr) (by norm_num; linarith)
    (by norm_num; linarith)).rnd M hw (by norm_num) (by norm_num)
  have b2 := ((Ap.lit M hw (L := 2) (b := 0.377) (by norm_num) (by norm_num) (by norm_num)).mul
    b1).rnd M hw (by norm_num) (by norm_num)
  have bx : Ab f 0 15 e.bpr e.bpr := .exact (abs_le.2 ⟨by linarith, hb1⟩)
  have b3 := ((Ab.exact (f := f) (B := 1) (b := 1) (by norm_num)).add
    (((l 0.82 (by norm_num) (by norm_num)).mul hw bx).rnd M hw (c' := 25) (by norm_num)
      (by norm_num) (by norm_num))).rnd M hw (c' := 39) (by norm_num) (by norm_num) (by norm_num)
  have b4 := (((l 0.0606 (by norm_num) (by norm_num)).mul hw bx).rnd M hw (c' := 2)
    (by norm_num) (by norm_num) (by norm_num)).add
    (l 0.6337 (by norm_num) (by norm_num)) |>.rnd M hw (c' := 4.5) (by norm_num)
      (by norm_num) (by norm_num)
  have b3' := Ap.of_abs hw (L := 4) (k := 39) b3.err (by linarith) (by linarith) (by norm_num)
    (by norm_num) (by norm_num; linarith) (by norm_num; linarith)
  have b4' := Ap.of_abs hw (L := 1) (k := 7.2) b4.err (by linarith) (by linarith) (by norm_num)
    (by norm_num) (by norm_num; linarith) (by norm_num; linarith)
  have b5 := ((b3'.mul b4').rnd M hw (by norm_num) (by norm_num)).sqrt.rnd M hw (by norm_num)
    (by norm_num)
  have b6 := (b2.div b5).rnd M hw (by norm_num) (by norm_num)
  have b7 : 0.377 * (1 + e.bpr) / √((1 + 0.82 * e.bpr) * (0.0606 * e.bpr + 0.6337)) ≤ 1.5 := by
    rw [div_le_iff₀ b5.pos, ← sqrt_sq (by norm_num : (0 : ℝ) ≤ 1.5), ← sqrt_mul (by norm_num)]
    refine le_sqrt_of_sq_le ?_
    nlinarith [mul_nonneg hb0 (sub_nonneg.2 hb1)]
  have K := Ab.of_ap hw (c := 45) b6 (by norm_num) (by norm_num) b7 (by norm_num)
  -- the polynomials in the pressure ratio
  have p2 := Ab.of_ap hw (B := 1.54) (c := 421) ((hd.npow 2).lib (M.powi_acc d' 2) hw
    (by norm_num) (by norm_num)) (by norm_num) (by norm_num) (by nlinarith) (by norm_num)
  have p3 := Ab.of_ap hw (B := 1.91) (c := 775) ((hd.npow 3).lib (M.powi_acc d' 3) hw
    (by norm_num) (by norm_num)) (by norm_num) (by norm_num)
    (by nlinarith [mul_le_mul hd1 hd1 d0.le (by norm_num)]) (by norm_num)
  have p1 := Ab.of_ap hw (B := 1.24) (c := 165) hd (by norm_num) (by norm_num) hd1 (by norm_num)
  have A := ((((l 0.4327 (by norm_num) (by norm_num)).neg.mul hw p2).rnd M hw
    (c' := 184) (by norm_num) (by norm_num) (by norm_num)).add
    (((l 1.3855 (by norm_num) (by norm_num)).mul hw p1).rnd M hw (c' := 233)
      (by norm_num) (by norm_num) (by norm_num)) |>.rnd M hw (c' := 420) (by norm_num) (by norm_num)
      (by norm_num)).add (l 0.0472 (by norm_num) (by norm_num)) |>.rnd M hw
      (c' := 423) (by norm_num) (by norm_num) (by norm_num)
  have Z := ((((l 0.9106 (by norm_num) (by norm_num)).mul hw p3).rnd M hw
    (c' := 710) (by norm_num) (by norm_num) (by norm_num)).sub
    (((l 1.7736 (by norm_num) (by norm_num)).mul hw p2).rnd M hw (c' := 753)
      (by norm_num) (by norm_num) (by norm_num)) |>.rnd M hw (c' := 1470) (by norm_num)
      (by norm_num) (by norm_num)).add
    (((l 1.8697 (by norm_num) (by norm_num)).mul hw p1).rnd M hw (c' := 314)
      (by norm_num) (by norm_num) (by norm_num)) |>.rnd M hw
      (c' := 1792) (by norm_num) (by norm_num) (by norm_num)
  have X := ((((l 0.1377 (by norm_num) (by norm_num)).mul hw p3).rnd M hw
    (c' := 108) (by norm_num) (by norm_num) (by norm_num)).sub
    (((l 0.4374 (by norm_num) (by norm_num)).mul hw p2).rnd M hw (c' := 187)
      (by norm_num) (by norm_num) (by norm_num)) |>.rnd M hw (c' := 297) (by norm_num)
      (by norm_num) (by norm_num)).add
    (((l 1.3003 (by norm_num) (by norm_num)).mul hw p1).rnd M hw (c' := 219)
      (by norm_num) (by norm_num) (by norm_num)) |>.rnd M hw
      (c' := 520) (by norm_num) (by norm_num) (by norm_num)
  have d2 : d ^ 2 ≤ 1.24 * d := by nlinarith
  have d3 : d ^ 3 ≤ 1.24 * d ^ 2 := by nlinarith [sq_nonneg d]
  have d20 : 0 ≤ d ^ 2 := sq_nonneg d
  have d30 : 0 ≤ d ^ 3 := by positivity
  have Z' := Z.le (B' := 1.34) (abs_le.2 ⟨by nlinarith, by nlinarith [sq_nonneg (d - 1)]⟩)
  have X' := X.le (B' := 1.3) (abs_le.2 ⟨by nlinarith, by nlinarith⟩)
  have A' := A.le (B' := 1.2) (abs_le.2 ⟨by nlinarith, by nlinarith [sq_nonneg (d - 1.24)]⟩)
  -- the quadratic term
  have s0 := sqrt_nonneg e.bpr
  have s1 : √e.bpr ≤ 3.88 := (sqrt_le_left (by norm_num)).2 (by norm_num; linarith)
  have W := (l 0.23 (by norm_num) (by norm_num)).add
    (((l 0.19 (by norm_num) (by norm_num)).mul hw
      ((Ab.exact (f := f) (b := √e.bpr) (B := 3.88) (abs_le.2 ⟨by linarith, s1⟩)).rnd M hw
        (c' := 3.89) (by norm_num) (by norm_num) (by norm_num))).rnd M hw (c' := 2.3) (by norm_num)
        (by norm_num) (by norm_num)) |>.rnd M hw (c' := 3.6) (by norm_num) (by norm_num)
        (by norm_num)
  have m2 := ((hm.mul hw hm).le (B' := 0.5625) (by
    rw [abs_mul]; have := hm.bound; nlinarith [abs_nonneg m])).lib hw (z := M.powi m' 2)
    (by rw [← pow_two]; exact M.powi_acc m' 2) (c' := 24.1) (by norm_num) (by norm_num)
    (by norm_num)
  have q1 := ((K.mul hw Z').rnd M hw (c' := 2752) (by norm_num) (by norm_num) (by norm_num)).mul
    hw hm |>.rnd M hw (c' := 2093) (by norm_num) (by norm_num) (by norm_num)
  have q2 := ((W.mul hw X').rnd M hw (c' := 510) (by norm_num) (by norm_num) (by norm_num)).mul
    hw m2 |>.rnd M hw (c' := 318) (by norm_num) (by norm_num) (by norm_num)
  have q := ((A'.sub q1).rnd M hw (c' := 2520) (by norm_num) (by norm_num) (by norm_num)).add q2
    |>.rnd M hw (c' := 2850) (by norm_num) (by norm_num) (by norm_num)
  have ev : (takeoffRatio (flt M) (Fl.thrust M e) ⟨m'⟩ ⟨d'⟩).val =
    M.rnd (M.rnd (M.rnd (M.rnd (M.rnd (-M.rnd 0.4327 * M.powi d' 2) + M.rnd (M.rnd 1.3855 * d')) +
        M.rnd 0.0472) -
      M.rnd (M.rnd (M.rnd (M.rnd (M.rnd 0.377 * M.rnd (M.rnd 1.0 + e.bpr)) /
        M.rnd (√(M.rnd (M.rnd (M.rnd 1.0 + M.rnd (M.rnd 0.82 * e.bpr)) *
          M.rnd (M.rnd (M.rnd 0.0606 * e.bpr) + M.rnd 0.6337))))) *
        M.rnd (M.rnd (M.rnd (M.rnd 0.9106 * M.powi d' 3) - M.rnd (M.rnd 1.7736 * M.powi d' 2)) +
          M.rnd (M.rnd 1.8697 * d'))) * m')) +
      M.rnd (M.rnd (M.rnd (M.rnd 0.23 + M.rnd (M.rnd 0.19 * M.rnd (√e.bpr))) *
        M.rnd (M.rnd (M.rnd (M.rnd 0.1377 * M.powi d' 3) - M.rnd (M.rnd 0.4374 * M.powi d' 2)) +
          M.rnd (M.rnd 1.3003 * d'))) * M.powi m' 2)) := rfl
  rw [ev, one]
  have ev' : takeoffRatio np e m d = (-0.4327 * d ^ 2 + 1.3855 * d + 0.0472) -
      0.377 * (1 + e.bpr) / √((1 + 0.82 * e.bpr) * (0.0606 * e.bpr + 0.6337)) *
        (0.9106 * d ^ 3 - 1.7736 * d ^ 2 + 1.8697 * d) * m +
      (0.23 + 0.19 * √e.bpr) * (0.1377 * d ^ 3 - 0.4374 * d ^ 2 + 1.3003 * d) * (m * m) := by
    unfold takeoffRatio
    rw [show (1.0 : ℝ) = 1 by norm_num, pow_two m]
    rfl
  rw [ev']
  exact q.le (q.bound.trans (by norm_num))

/-- Take-off thrust. -/
theorem fl_takeoff (hb0 : 0 ≤ e.bpr) (hb1 : e.bpr ≤ 15) (hT1 : 1000 ≤ e.maxThrust)
    (hT2 : e.maxThrust ≤ 1000000) (hN1 : 1 ≤ e.number) (hN2 : e.number ≤ 10) {tas alt : ℝ}
    (t1 : 0 ≤ tas) (t2 : tas ≤ 400) (h1 : -1000 ≤ alt * 0.3048) (h2 : alt * 0.3048 ≤ 15000)
    (dT : ℝ) :
    |(takeoff (flt M) (Fl.thrust M e) ⟨tas⟩ ⟨alt⟩ ⟨dT⟩).val - takeoff np e tas alt dT| ≤
      2900 * f.u * (e.maxThrust * e.number) := by
  have hu := f.u_pos
  have z : M.rnd 0.0 = 0 := by
    rw [show (0.0 : ℝ) = 0 by norm_num]; exact M.rnd_zero hw
  have v1 := ((Ab.exact (f := f) (B := 400) (b := tas) (abs_le.2 ⟨by linarith, t2⟩)).mul hw
    (fl_lit M hw 0.514444 (by norm_num) (by norm_num))).rnd M hw (c' := 412) (by norm_num)
    (by norm_num) (by norm_num)
  have a0 := fl_vsound M hw (h := 0) (by norm_num) dT
  have a1 : 277 ≤ vsound np 0 dT := by
    have e' : vsound np 0 dT = √(1.40 * 287.05287 * Spec.isaTemp 0 dT) := by
      rw [← temperature_eq]; rfl
    have t1 := temp_ge 0 dT
    rw [e']
    refine le_sqrt_of_sq_le ?_
    nlinarith
  have a2 := Ab.of_ap hw (B := 0.00362) (c := 0.03) a0.inv (by norm_num) (by norm_num)
    (by
      rw [inv_le_comm₀ (by linarith) (by norm_num)]
      exact le_trans (by norm_num) a1) (by norm_num)
  have m := (v1.mul hw a2).le (B' := 0.75) (by
    rw [abs_mul]
    refine le_trans (mul_le_mul v1.bound a2.bound (abs_nonneg _) (by norm_num)) (by norm_num))
    |>.rnd M hw (c' := 13) (by norm_num) (by norm_num) (by norm_num)
  obtain ⟨p1, p2⟩ := pressure_bounds h1 h2 dT
  have d := (((fl_pressure_ft M hw h1 h2 dT).div (Ap.exact (u := f.u) (L := 17) (b := 101325)
    (by norm_num) (by norm_num))).range (K := 5)
      (by rw [le_div_iff₀ (by norm_num)]; norm_num; linarith)
      (by rw [div_le_iff₀ (by norm_num)]; norm_num; linarith)).rnd M hw (by norm_num) (by norm_num)
    |>.mono (m := 131) hu.le (by norm_num)
  have q := fl_takeoffRatio M hw e hb0 hb1 m d (by rw [div_le_iff₀ (by norm_num)]; linarith)
  have q1 := (q.mul hw (Ab.exact (f := f) (b := e.maxThrust) (B := e.maxThrust)
    (abs_of_pos (by linarith)).le)).rnd M hw (c' := 2854 * e.maxThrust) (by norm_num; linarith)
    (by norm_num; linarith) (by norm_num; linarith)
  have F1 : 1000 ≤ e.maxThrust * e.number := by nlinarith
  have F2 : e.maxThrust * e.number ≤ 10000000 := by nlinarith
  have q2 := (q1.mul hw (Ab.exact (f := f) (b := e.number) (B := e.number)
    (abs_of_pos (by linarith)).le)).rnd M hw (c' := 2900 * (e.maxThrust * e.number))
    (by norm_num; nlinarith) (by norm_num; nlinarith) (by norm_num; nlinarith)
  refine le_trans ?_ (le_of_eq (by ring : 2900 * (e.maxThrust * e.number) * f.u = _))
  have ev : (takeoff (flt M) (Fl.thrust M e) ⟨tas⟩ ⟨alt⟩ ⟨dT⟩).val =
    M.rnd (M.rnd ((takeoffRatio (flt M) (Fl.thrust M e)
      ⟨M.rnd (M.rnd (tas * M.rnd 0.514444) / (vsound (flt M) ⟨M.rnd 0.0⟩ ⟨dT⟩).val)⟩
      ⟨M.rnd ((pressure (flt M) ⟨M.rnd (alt * M.rnd 0.3048)⟩ ⟨dT⟩).val / M.rnd 101325.0)⟩).val *
      e.maxThrust) * e.number) := rfl
  have ev' : takeoff np e tas alt dT =
    takeoffRatio np e (tas * 0.514444 * (vsound np 0 dT)⁻¹)
      (pressure np (alt * 0.3048) dT / 101325) * e.maxThrust * e.number := by
    rw [← div_eq_mul_inv]
    unfold takeoff tas2mach
    rw [show (0.0 : ℝ) = 0 by norm_num, show (p0 : ℝ) = 101325 by unfold p0; norm_num]
    rfl
  rw [ev, ev', z, rnd_p0 M hw, div_eq_mul_inv (M.rnd (tas * M.rnd 0.514444))]
  exact q2.err

end Thrust
end Verif
