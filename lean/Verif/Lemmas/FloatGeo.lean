import Verif.Lemmas.FloatDrag
import Verif.Model.Geo
import Mathlib.Analysis.Complex.Trigonometric
import Mathlib.Analysis.SpecialFunctions.Trigonometric.Bounds
import Mathlib.Analysis.SpecialFunctions.Trigonometric.InverseDeriv
import Mathlib.Analysis.Real.Pi.Bounds

/-!
# Rounding error of the great-circle distance
-/

namespace Verif.Geo
open Verif.Aero Verif.Drag Real

variable {f : Format} (M : Machine f) (hw : f.Wide)

include hw in
theorem rnd_180 : M.rnd 180.0 = 180 := by
  have := M.rnd_nat hw 180 (by norm_num)
  norm_num at this ⊢; exact this

include hw in
theorem rnd_R : M.rnd 6371000.0 = 6371000 := by
  have := M.rnd_nat hw 6371000 (by norm_num)
  norm_num at this ⊢; exact this

include hw in
theorem fl_deg : |M.rnd (M.rnd π / 180) - π / 180| ≤ 0.0358 * f.u := by
  have hu := f.u_pos
  have p1 := pi_gt_three
  have p2 := pi_lt_d4
  have h1 := Ap.lit M hw (L := 2) (b := π) (le_trans (by norm_num) p1.le) (p2.le.trans (by norm_num))
    (by norm_num)
  have h2 := (h1.div (Ap.exact (u := f.u) (L := 8) (b := 180) (by norm_num) (by norm_num))).rnd M hw
    (by norm_num) (by norm_num)
  have := h2.rel (by norm_num) hu.le (by have := hw.u_le'; nlinarith)
  refine this.trans ?_
  rw [div_eq_mul_one_div]
  nlinarith

include hw in
/-- Degrees to radians. -/
theorem fl_rad {x B c R : ℝ} (hx : |x| ≤ B) (hB : B ≤ 1000) (hc : 0.0358 * B ≤ c)
    (hR : 0.01746 * B + 0.001 ≤ R) :
    |M.rnd (x * M.rnd (M.rnd π / 180)) - x * (π / 180)| ≤ (c + R) * f.u := by
  have hu := f.u_pos
  have hB0 : 0 ≤ B := (abs_nonneg _).trans hx
  have p2 := pi_lt_d4
  have c0 : 0 ≤ c := le_trans (by positivity) hc
  have d0 : |M.rnd (M.rnd π / 180) - π / 180| * |x| ≤ 0.0358 * f.u * B :=
    mul_le_mul (fl_deg M hw) hx (abs_nonneg _) (by positivity)
  have := M.rnd_abs hw (a := x * M.rnd (M.rnd π / 180)) (b := x * (π / 180)) (c := 0.0358 * B)
    (B := 0.01746 * B) (B' := R) (by
      rw [← mul_sub, abs_mul, mul_comm]
      linarith)
    (by
      rw [abs_mul, abs_of_pos (by positivity : 0 < π / 180), mul_comm]
      exact mul_le_mul (by linarith) hx (abs_nonneg _) (by norm_num))
    (by linarith) (by linarith) (by linarith)
  exact this.trans (mul_le_mul_of_nonneg_right (by linarith) hu.le)

/-! ## The square root of the haversine -/

theorem sqrt_core {u s1 s2 c1 c2 t1 t2 d1 d2 : ℝ} (hu : 0 < u) (hu' : u ≤ 1 / 16000000)
    (h1 : |t1 - s1| ≤ 16 * u) (h2 : |t2 - s2| ≤ 40 * u) (k1 : |d1 - c1| ≤ 13 * u)
    (k2 : |d2 - c2| ≤ 13 * u) (s2le : |s2| ≤ 1) (c1l : 0.0017 ≤ c1) (c2l : 0.0017 ≤ c2)
    (c1u : c1 ≤ 1) (c2u : c2 ≤ 1) (hc : |c1 - c2| ≤ 2 * |s1|) :
    |√(t1 ^ 2 + d1 * d2 * t2 ^ 2) - √(s1 ^ 2 + c1 * c2 * s2 ^ 2)| ≤ 82.4 * u := by
  have d1l : 0.999 * c1 ≤ d1 := by have := (abs_le.1 k1).1; linarith
  have d2l : 0.999 * c2 ≤ d2 := by have := (abs_le.1 k2).1; linarith
  have d2u : d2 ≤ 1.001 * c2 := by have := (abs_le.1 k2).2; linarith
  have c10 : 0 < c1 := by linarith
  have c20 : 0 < c2 := by linarith
  have d10 : 0 < d1 := by linarith
  have d20 : 0 < d2 := by linarith
  set A := s1 ^ 2 + c1 * c2 * s2 ^ 2 with hA
  set B := t1 ^ 2 + d1 * d2 * t2 ^ 2 with hB
  have A0 : 0 ≤ A := by positivity
  have B0 : 0 ≤ B := by positivity
  set X := √A with hX
  set Y := √B with hY
  have X0 : 0 ≤ X := sqrt_nonneg _
  have Y0 : 0 ≤ Y := sqrt_nonneg _
  have XA : X ^ 2 = A := sq_sqrt A0
  have YB : Y ^ 2 = B := sq_sqrt B0
  have x1 : |s1| ≤ X := abs_le_sqrt (by rw [hA]; exact le_add_of_nonneg_right (by positivity))
  have y1 : |t1| ≤ Y := abs_le_sqrt (by rw [hB]; exact le_add_of_nonneg_right (by positivity))
  -- the smaller cosine
  obtain ⟨m, m0, m1, m2, mK, msum⟩ : ∃ m, 0 < m ∧ m ≤ c1 ∧ m ≤ c2 ∧ c1 * c2 ≤ m ∧
      c1 + 1.001 * c2 ≤ 2.001 * m + 2.002 * |s1| := by
    obtain ⟨e1, e2⟩ := abs_le.1 hc
    have := abs_nonneg s1
    rcases le_total c1 c2 with h | h
    · exact ⟨c1, c10, le_rfl, h, by nlinarith, by linarith⟩
    · exact ⟨c2, c20, h, le_rfl, by nlinarith, by linarith⟩
  have x2 : m * |s2| ≤ X := by
    rw [← abs_of_pos m0, ← abs_mul]
    refine abs_le_sqrt ?_
    rw [mul_pow, hA]
    have : m ^ 2 ≤ c1 * c2 := by
      rw [sq]
      exact mul_le_mul m1 m2 m0.le c10.le
    exact (mul_le_mul_of_nonneg_right this (sq_nonneg s2)).trans
      (le_add_of_nonneg_left (sq_nonneg s1))
  have y2 : 0.999 * m * |t2| ≤ Y := by
    rw [← abs_of_pos (by positivity : 0 < 0.999 * m), ← abs_mul]
    refine abs_le_sqrt ?_
    rw [mul_pow, hB]
    have : (0.999 * m) ^ 2 ≤ d1 * d2 := by
      rw [sq]
      exact mul_le_mul (by linarith) (by linarith) (by positivity) d10.le
    exact (mul_le_mul_of_nonneg_right this (sq_nonneg t2)).trans
      (le_add_of_nonneg_left (sq_nonneg t1))
  have y3 : m * |t2| ≤ 1.0011 * Y := by linarith
  have t2u : |t2| ≤ 1.0001 := by
    have : |t2| ≤ |t2 - s2| + |s2| := by
      calc |t2| = |(t2 - s2) + s2| := by ring_nf
        _ ≤ _ := abs_add_le _ _
    linarith
  have a1 : |t1 ^ 2 - s1 ^ 2| ≤ 16 * u * (X + Y) := by
    rw [sq_sub_sq, abs_mul, mul_comm]
    refine mul_le_mul h1 ?_ (abs_nonneg _) (by positivity)
    exact (abs_add_le _ _).trans (by linarith)
  have a2 : |c1 * c2 * (t2 ^ 2 - s2 ^ 2)| ≤ 40.05 * u * (X + Y) := by
    rw [abs_mul, abs_of_pos (mul_pos c10 c20), sq_sub_sq, abs_mul]
    calc c1 * c2 * (|t2 + s2| * |t2 - s2|) ≤ m * ((|t2| + |s2|) * (40 * u)) := by
          refine mul_le_mul mK ?_ (by positivity) m0.le
          exact mul_le_mul (abs_add_le _ _) h2 (abs_nonneg _) (by positivity)
      _ = (m * |t2| + m * |s2|) * (40 * u) := by ring
      _ ≤ (1.0011 * Y + X) * (40 * u) := by gcongr
      _ ≤ _ := by linarith [mul_nonneg hu.le X0, mul_nonneg hu.le Y0]
  have a3 : |(d1 * d2 - c1 * c2) * t2 ^ 2| ≤ 26.3 * u * (X + Y) := by
    have e : d1 * d2 - c1 * c2 = (d1 - c1) * d2 + c1 * (d2 - c2) := by ring
    have b1 : |d1 * d2 - c1 * c2| ≤ 13 * u * (c1 + 1.001 * c2) := by
      rw [e]
      refine (abs_add_le _ _).trans ?_
      rw [abs_mul, abs_mul, abs_of_pos d20, abs_of_pos c10]
      have := mul_le_mul k1 d2u d20.le (by positivity)
      have := mul_le_mul_of_nonneg_left k2 c10.le
      linarith
    rw [abs_mul, abs_of_nonneg (sq_nonneg t2), ← sq_abs t2]
    have T0 := abs_nonneg t2
    set T := |t2| with hT
    have b2 : (c1 + 1.001 * c2) * T ^ 2 ≤ 2.0052 * Y + 2.003 * X := by
      have S0 := abs_nonneg s1
      calc (c1 + 1.001 * c2) * T ^ 2 ≤ (2.001 * m + 2.002 * |s1|) * T ^ 2 := by gcongr
        _ = 2.001 * (m * T) * T + 2.002 * |s1| * T ^ 2 := by ring
        _ ≤ 2.001 * (1.0011 * Y) * 1.0001 + 2.002 * X * 1.0001 ^ 2 := by gcongr
        _ ≤ _ := by norm_num; linarith
    calc |d1 * d2 - c1 * c2| * T ^ 2 ≤ 13 * u * (c1 + 1.001 * c2) * T ^ 2 := by gcongr
      _ = 13 * u * ((c1 + 1.001 * c2) * T ^ 2) := by ring
      _ ≤ 13 * u * (2.0052 * Y + 2.003 * X) := by gcongr
      _ ≤ _ := by linarith [mul_nonneg hu.le X0, mul_nonneg hu.le Y0]
  have tot : |B - A| ≤ 82.4 * u * (X + Y) := by
    have e : B - A = (t1 ^ 2 - s1 ^ 2) + c1 * c2 * (t2 ^ 2 - s2 ^ 2) +
        (d1 * d2 - c1 * c2) * t2 ^ 2 := by rw [hA, hB]; ring
    rw [e]
    refine (abs_add_le _ _).trans ((add_le_add (abs_add_le _ _) le_rfl).trans ?_)
    linarith [mul_nonneg hu.le X0, mul_nonneg hu.le Y0]
  rcases eq_or_lt_of_le (add_nonneg X0 Y0) with h0 | h0
  · have : X = 0 := by linarith
    have : Y = 0 := by linarith
    rw [‹X = 0›, ‹Y = 0›]; simp; positivity
  · have e : B - A = (Y - X) * (X + Y) := by rw [← XA, ← YB]; ring
    rw [e, abs_mul, abs_of_pos h0] at tot
    exact le_of_mul_le_mul_right tot h0

theorem _root_.Verif.Machine.rnd_nonneg {f : Format} (M : Machine f) (hw : f.Wide) {x : ℝ}
    (h0 : 0 ≤ x) (hx : x ≤ 2 ^ (127 : ℤ)) : 0 ≤ M.rnd x := by
  by_contra h
  have := M.rnd_near x (by rw [abs_of_nonneg h0]; exact hx.trans hw.le_max) 0
    (f.repr_zero (by have := hw.small; have := hw.large; omega))
  rw [zero_sub, abs_neg, abs_of_nonneg h0, abs_of_neg (by linarith)] at this
  linarith

theorem sum_core {u t T1 T2 K p1 p2 q z w : ℝ} (hu : 0 < u) (hu' : u ≤ 1 / 16000000)
    (ht : 0 < t) (T10 : 0 ≤ T1) (T20 : 0 ≤ T2) (K0 : 0 ≤ K) (K1 : K ≤ 1.001)
    (h1 : |p1 - T1| ≤ 8 * u * (T1 + t)) (h2 : |p2 - T2| ≤ 8 * u * (T2 + t))
    (p20 : 0 ≤ p2)
    (hq : |q - K| ≤ u * K) (hz : |z - q * p2| ≤ u * (q * p2 + t))
    (hw : |w - (p1 + z)| ≤ u * (p1 + z + t)) :
    |w - (T1 + K * T2)| ≤ 11.2 * u * (T1 + K * T2) + 20 * u * t := by
  obtain ⟨a1, a2⟩ := abs_le.1 h1
  obtain ⟨b1, b2⟩ := abs_le.1 h2
  obtain ⟨c1, c2⟩ := abs_le.1 hq
  obtain ⟨d1, d2⟩ := abs_le.1 hz
  obtain ⟨e1, e2⟩ := abs_le.1 hw
  have ut := mul_pos hu ht
  have uu : u * u ≤ u / 16000000 := by nlinarith
  have KT := mul_nonneg K0 T20
  have uKT := mul_nonneg hu.le KT
  have uT1 := mul_nonneg hu.le T10
  have hp2 : p2 ≤ (1 + 8 * u) * T2 + 8 * u * t := by linarith
  have hp2' : (1 - 8 * u) * T2 - 8 * u * t ≤ p2 := by linarith
  have hqu : q ≤ (1 + u) * K := by linarith
  have hql : (1 - u) * K ≤ q := by linarith
  have c3 : (1 + u) * (1 + u) * (1 + 8 * u) ≤ 1 + 10.1 * u := by
    nlinarith [mul_nonneg hu.le hu.le]
  have c3' : 1 - 10 * u ≤ (1 - u) * (1 - u) * (1 - 8 * u) := by
    nlinarith [mul_nonneg hu.le hu.le]
  have c4 : (1 + u) * (1 + u) ≤ 1.001 := by nlinarith
  have c4' : (1 - u) * (1 - u) ≤ 1 := by nlinarith
  have zu : z ≤ (1 + 10.1 * u) * (K * T2) + 10 * (u * t) := by
    have : (1 + u) * (q * p2) ≤ (1 + u) * ((1 + u) * K * ((1 + 8 * u) * T2 + 8 * u * t)) := by
      gcongr
    have r1 : (1 + u) * (1 + u) * (1 + 8 * u) * (K * T2) ≤ (1 + 10.1 * u) * (K * T2) :=
      mul_le_mul_of_nonneg_right c3 KT
    have r2 : (1 + u) * (1 + u) * K ≤ 1.001 * 1.001 :=
      mul_le_mul c4 K1 K0 (by norm_num)
    have r3 := mul_le_mul_of_nonneg_right r2 ut.le
    have : (1 + u) * ((1 + u) * K * ((1 + 8 * u) * T2 + 8 * u * t)) =
      (1 + u) * (1 + u) * (1 + 8 * u) * (K * T2) + 8 * ((1 + u) * (1 + u) * K * (u * t)) := by
      ring
    linarith
  have zl : (1 - 10 * u) * (K * T2) - 10 * (u * t) ≤ z := by
    have s1 : (1 - u) * ((1 - u) * K * p2) ≤ (1 - u) * (q * p2) :=
      mul_le_mul_of_nonneg_left (mul_le_mul_of_nonneg_right hql p20) (by linarith)
    have s2 : (1 - u) * (1 - u) * K * ((1 - 8 * u) * T2 - 8 * u * t) ≤
        (1 - u) * (1 - u) * K * p2 :=
      mul_le_mul_of_nonneg_left hp2' (mul_nonneg (mul_self_nonneg _) K0)
    have r1 : (1 - 10 * u) * (K * T2) ≤ (1 - u) * (1 - u) * (1 - 8 * u) * (K * T2) :=
      mul_le_mul_of_nonneg_right c3' KT
    have r2 : (1 - u) * (1 - u) * K ≤ 1 * 1.001 :=
      mul_le_mul c4' K1 K0 (by norm_num)
    have r3 := mul_le_mul_of_nonneg_right r2 ut.le
    linarith
  have uB : 0 ≤ u * (T1 + K * T2) := by positivity
  have uuB : u * (u * (T1 + K * T2)) ≤ u * (T1 + K * T2) / 16000000 := by
    have : u * (u * (T1 + K * T2)) = u * u * (T1 + K * T2) := by ring
    rw [this]
    have := mul_le_mul_of_nonneg_right uu (add_nonneg T10 KT)
    linarith
  rw [abs_le]
  constructor
  · have : (1 - u) * ((1 - 10 * u) * (T1 + K * T2) - 18 * (u * t)) ≤ (1 - u) * (p1 + z) :=
      mul_le_mul_of_nonneg_left (by linarith) (by linarith)
    have h3 : (1 - u) * ((1 - 10 * u) * (T1 + K * T2) - 18 * (u * t)) =
      (T1 + K * T2) - 11 * (u * (T1 + K * T2)) + 10 * (u * (u * (T1 + K * T2))) - 18 * (u * t)
        + 18 * (u * (u * t)) := by ring
    have : 0 ≤ u * (u * t) := by positivity
    have : 0 ≤ u * (u * (T1 + K * T2)) := by positivity
    linarith
  · have : (1 + u) * (p1 + z) ≤ (1 + u) * ((1 + 10.1 * u) * (T1 + K * T2) + 18 * (u * t)) :=
      mul_le_mul_of_nonneg_left (by linarith) (by linarith)
    have h3 : (1 + u) * ((1 + 10.1 * u) * (T1 + K * T2) + 18 * (u * t)) =
      (T1 + K * T2) + 11.1 * (u * (T1 + K * T2)) + 10.1 * (u * (u * (T1 + K * T2))) + 18 * (u * t)
        + 18 * (u * (u * t)) := by ring
    have : u * (u * t) ≤ u * t / 16000000 := by
      have : u * (u * t) = u * u * t := by ring
      rw [this]
      have := mul_le_mul_of_nonneg_right uu ht.le
      linarith
    linarith

theorem root_core {u t B w : ℝ} (hu : 0 < u) (hu' : u ≤ 1 / 16000000) (ht : 0 < t)
    (htu : t ≤ u / 8000) (B0 : 0 ≤ B) (hY : √B ≤ 1.0001)
    (h : |w - B| ≤ 11.2 * u * B + 20 * u * t) : |√w - √B| ≤ 11.4 * u := by
  obtain ⟨l, r⟩ := abs_le.1 h
  have YB : √B ^ 2 = B := sq_sqrt B0
  have Y0 := sqrt_nonneg B
  set Y := √B
  have ut : u * t ≤ u * u / 8000 := by nlinarith
  have uY := mul_nonneg hu.le Y0
  have uu : 0 < u * u := by positivity
  have BY : B ≤ 1.0001 * Y := by rw [← YB]; nlinarith
  have uBY : u * B ≤ 1.0001 * (u * Y) := by nlinarith
  rw [abs_le]
  constructor
  · rcases le_or_gt Y (11.4 * u) with h0 | h0
    · linarith [sqrt_nonneg w]
    · have : Y - 11.4 * u ≤ √w := by
        refine le_sqrt_of_sq_le ?_
        have : (Y - 11.4 * u) ^ 2 = B - 22.8 * (u * Y) + 129.96 * (u * u) := by rw [← YB]; ring
        have : 11.4 * (u * u) ≤ u * Y := by nlinarith
        rw [‹(Y - 11.4 * u) ^ 2 = _›]
        linarith
      linarith
  · have : √w ≤ (1 + 5.6 * u) * Y + 0.1 * u := by
      rw [sqrt_le_left (by positivity)]
      have : ((1 + 5.6 * u) * Y + 0.1 * u) ^ 2 = B + 11.2 * (u * B) + 31.36 * (u * u * B) +
        0.2 * (u * ((1 + 5.6 * u) * Y)) + 0.01 * (u * u) := by rw [← YB]; ring
      have : 0 ≤ u * u * B := by positivity
      have : 0 ≤ u * ((1 + 5.6 * u) * Y) := by positivity
      rw [‹((1 + 5.6 * u) * Y + 0.1 * u) ^ 2 = _›]
      linarith
    nlinarith

theorem _root_.Verif.Machine.powi_sq {f : Format} (M : Machine f) (hw : f.Wide) {x : ℝ}
    (hx : |x| ≤ 2) : 0 ≤ M.powi x 2 ∧
    |M.powi x 2 - x ^ 2| ≤ 8 * f.u * (x ^ 2 + 2 ^ (-126 : ℤ)) := by
  have hu := f.u_pos
  have h2 : |x ^ 2| ≤ 4 := by rw [abs_pow]; nlinarith [abs_nonneg x]
  have ha := M.powi_acc x 2
  constructor
  · rcases eq_or_ne x 0 with h0 | h0
    · rw [ha.1 (by simp [h0])]
    · have : 0 < x ^ 2 := by positivity
      exact nonneg_of_mul_nonneg_left ha.2.1 this
  · refine (ha.abs_err hw (h2.trans (by norm_num))).trans ?_
    rw [abs_of_nonneg (sq_nonneg x)]
    gcongr
    exact max_le (le_add_of_nonneg_right (by positivity)) (le_add_of_nonneg_left (sq_nonneg x))

theorem _root_.Verif.Machine.rnd_err' {f : Format} (M : Machine f) (hw : f.Wide) {x : ℝ}
    (h0 : 0 ≤ x) (hx : x ≤ 1000) :
    0 ≤ M.rnd x ∧ |M.rnd x - x| ≤ f.u * (x + 2 ^ (-126 : ℤ)) := by
  have hx' : |x| ≤ 2 ^ (127 : ℤ) := by rw [abs_of_nonneg h0]; exact hx.trans (by norm_num)
  refine ⟨M.rnd_nonneg hw h0 ((le_abs_self x).trans hx'), (M.rnd_err hw hx').trans ?_⟩
  have := f.u_pos
  rw [abs_of_nonneg h0]
  gcongr
  exact max_le (le_add_of_nonneg_right (by positivity)) (le_add_of_nonneg_left h0)

theorem _root_.Verif.Format.Wide.small_le {f : Format} (hw : f.Wide) :
    (2 : ℝ) ^ (-126 : ℤ) ≤ f.u / 8000 := by
  have : (2 : ℝ) ^ (-113 : ℤ) ≤ f.u := by
    unfold Format.u
    exact zpow_le_zpow_right₀ (by norm_num) (by have := hw.quad; omega)
  refine le_trans ?_ (div_le_div_of_nonneg_right this (by norm_num))
  norm_num

include hw in
/-- Rounding in the sum under the root, with its square root. -/
theorem fl_sqrt_sum {t1 t2 d1 d2 : ℝ} (ht1 : |t1| ≤ 1.0001) (ht2 : |t2| ≤ 1.0001)
    (d1l : 0.001 ≤ d1) (d1u : d1 ≤ 1.0001) (d2l : 0.001 ≤ d2) (d2u : d2 ≤ 1.0001)
    (hB : √(t1 ^ 2 + d1 * d2 * t2 ^ 2) ≤ 1.0001) :
    0 ≤ M.rnd (√(M.rnd (M.powi t1 2 + M.rnd (M.rnd (d1 * d2) * M.powi t2 2)))) ∧
    |M.rnd (√(M.rnd (M.powi t1 2 + M.rnd (M.rnd (d1 * d2) * M.powi t2 2)))) -
      √(t1 ^ 2 + d1 * d2 * t2 ^ 2)| ≤ 12.5 * f.u := by
  have hu := f.u_pos
  have hu' := hw.u_le'
  have hsm := hw.small_le
  have ht0 : (0 : ℝ) < 2 ^ (-126 : ℤ) := by positivity
  have K0 : 0.000001 ≤ d1 * d2 := by nlinarith
  have K1 : d1 * d2 ≤ 1.001 := by nlinarith
  have hq : |M.rnd (d1 * d2) - d1 * d2| ≤ f.u * (d1 * d2) := by
    have e : |d1 * d2| = d1 * d2 := abs_of_nonneg (by linarith)
    have := M.rnd_rel hw (x := d1 * d2) (by rw [e]; exact K1.trans (by norm_num))
      (by rw [e]; exact le_trans (by norm_num) K0)
    rwa [e] at this
  have q0 := (M.rnd_err' hw (x := d1 * d2) (by linarith) (by linarith)).1
  obtain ⟨p10, h1⟩ := M.powi_sq hw (x := t1) (by linarith)
  obtain ⟨p20, h2⟩ := M.powi_sq hw (x := t2) (by linarith)
  have T1u : t1 ^ 2 ≤ 1.001 := by rw [← sq_abs]; nlinarith [abs_nonneg t1]
  have T2u : t2 ^ 2 ≤ 1.001 := by rw [← sq_abs]; nlinarith [abs_nonneg t2]
  have T10 := sq_nonneg t1
  have T20 := sq_nonneg t2
  obtain ⟨t, ht⟩ : ∃ t : ℝ, t = 2 ^ (-126 : ℤ) := ⟨_, rfl⟩
  have rn := fun x => M.rnd_err' hw (x := x)
  simp only [← ht] at h1 h2 hsm ht0 rn
  generalize t1 ^ 2 = T1 at *
  generalize t2 ^ 2 = T2 at *
  have ut : f.u * t ≤ 0.001 := by nlinarith
  have p1u : M.powi t1 2 ≤ 2 := by
    have := (abs_le.1 h1).2
    have : f.u * T1 ≤ 0.001 := by nlinarith
    linarith
  have p2u : M.powi t2 2 ≤ 2 := by
    have := (abs_le.1 h2).2
    have : f.u * T2 ≤ 0.001 := by nlinarith
    linarith
  generalize M.powi t1 2 = p1 at *
  generalize M.powi t2 2 = p2 at *
  have qu : M.rnd (d1 * d2) ≤ 2 := by
    have := (abs_le.1 hq).2
    have : f.u * (d1 * d2) ≤ 0.001 := by nlinarith
    linarith
  generalize d1 * d2 = K at *
  generalize M.rnd K = q at *
  have qp : q * p2 ≤ 4 := by nlinarith
  have qp0 : 0 ≤ q * p2 := by positivity
  obtain ⟨z0, hz⟩ := rn (q * p2) qp0 (by linarith)
  have zu : M.rnd (q * p2) ≤ 5 := by
    have := (abs_le.1 hz).2
    have : f.u * (q * p2) ≤ 0.001 := by nlinarith
    linarith
  generalize M.rnd (q * p2) = z at *
  obtain ⟨-, hs⟩ := rn (p1 + z) (by positivity) (by linarith)
  generalize M.rnd (p1 + z) = w at *
  have K0' : 0 ≤ K := by linarith
  have key := sum_core hu hu' ht0 T10 T20 K0' K1 h1 h2 p20 hq hz hs
  have r := root_core hu hu' ht0 hsm (by positivity) hB key
  refine ⟨M.rnd_nonneg hw (sqrt_nonneg _) ?_, ?_⟩
  · refine le_trans (b := 2) ?_ (by norm_num)
    have := (abs_le.1 r).2
    linarith
  exact (M.rnd_abs hw (B := 1.0001) (B' := 1.1) r
    (by rw [abs_of_nonneg (sqrt_nonneg _)]; exact hB)
    (by norm_num) (by norm_num) (by norm_num)).trans (by linarith)

/-! ## The arc sine -/

theorem sin_125 : sin 1.25 ≤ 0.9499 := by
  have h := cos_bound (x := π / 2 - 1.25) (by
    have := pi_gt_d4; have := pi_lt_d4
    rw [abs_le]; constructor <;> linarith)
  rw [cos_pi_div_two_sub] at h
  have h1 := (abs_le.1 h).2
  have p1 := pi_gt_d4
  have p2 := pi_lt_d4
  have e : |π / 2 - 1.25| = π / 2 - 1.25 := abs_of_nonneg (by linarith)
  rw [e] at h1
  have x1 : 0.3207 ≤ π / 2 - 1.25 := by linarith
  have x2 : π / 2 - 1.25 ≤ 0.3209 := by linarith
  generalize π / 2 - 1.25 = x at *
  have : x ^ 4 ≤ 0.3209 ^ 4 := pow_le_pow_left₀ (by linarith) x2 4
  norm_num at this h1 ⊢
  nlinarith

theorem arcsin_lip {x y : ℝ} (hx0 : 0 ≤ x) (hx : x ≤ 0.95) (hy0 : 0 ≤ y) (hy : y ≤ 0.95) :
    |arcsin x - arcsin y| ≤ 3.21 * |x - y| := by
  have h := (convex_Icc (0 : ℝ) 0.95).norm_image_sub_le_of_norm_hasDerivWithin_le
    (f := arcsin) (f' := fun x => 1 / √(1 - x ^ 2)) (C := 3.21)
    (fun z hz => (hasDerivAt_arcsin (by have := hz.1; linarith) (by
      have := hz.2; intro h; rw [h] at this; norm_num at this)).hasDerivWithinAt)
    (fun z hz => by
      have h1 : 0.0975 ≤ 1 - z ^ 2 := by have := hz.1; have := hz.2; nlinarith
      have h2 : 0.3122 ≤ √(1 - z ^ 2) := le_sqrt_of_sq_le (le_trans (by norm_num) h1)
      rw [norm_eq_abs, abs_of_nonneg (by positivity), div_le_iff₀ (by linarith)]
      linarith)
    (⟨hy0, hy⟩ : y ∈ Set.Icc (0 : ℝ) 0.95) (⟨hx0, hx⟩ : x ∈ Set.Icc (0 : ℝ) 0.95)
  simpa [norm_eq_abs] using h

/-! ## The distance -/

theorem cos_lat {x : ℝ} (hx : |x| ≤ 89.8) : 0.0017 ≤ cos (x * (π / 180)) := by
  have p0 := pi_pos
  have e : |x * (π / 180)| = |x| * (π / 180) := by
    rw [abs_mul, abs_of_pos (by positivity : 0 < π / 180)]
  rw [← cos_abs, e]
  have h := one_sub_mul_le_cos (x := |x| * (π / 180)) (by positivity) (by nlinarith)
  have : 2 / π * (|x| * (π / 180)) = |x| / 90 := by field_simp; ring
  rw [this] at h
  linarith

include hw in
theorem fl_cos_lat {x : ℝ} (hx : |x| ≤ 89.8) :
    |M.cos (M.rnd (x * M.rnd (M.rnd π / 180))) - cos (x * (π / 180))| ≤ 13 * f.u := by
  have hu := f.u_pos
  have h1 := fl_rad M hw (c := 3.22) (R := 1.57) hx (by norm_num) (by norm_num) (by norm_num)
  have h2 := (cos_lip _ _).trans h1
  refine ((M.cos_acc _).abs_add hw (B := 1) (B' := 8.01) h2 (abs_cos_le_one _) (by norm_num)
    (by norm_num) (by norm_num)).trans ?_
  linarith

include hw in
/-- The sine of half a difference of angles in degrees. -/
theorem fl_half {x y B R c2 : ℝ} (hx : |x| ≤ B) (hy : |y| ≤ B) (hB : B ≤ 500)
    (hR : 0.01746 * B + 0.001 ≤ R)
    (hc2 : 0.0358 * B + R + 2 * (0.01746 * B) + 8.02 ≤ c2) (hRu : R ≤ 100) :
    |M.sin (M.rnd (M.rnd (M.rnd (y * M.rnd (M.rnd π / 180)) - M.rnd (x * M.rnd (M.rnd π / 180))) /
      M.rnd 2.0)) - sin ((y * (π / 180) - x * (π / 180)) / 2.0)| ≤ c2 * f.u := by
  have hu := f.u_pos
  have hB0 : 0 ≤ B := (abs_nonneg _).trans hx
  have p2 := pi_lt_d4
  have e2 : M.rnd 2.0 = 2 := by
    have := M.rnd_nat hw 2 (by norm_num)
    norm_num at this ⊢; exact this
  have a1 := fl_rad M hw hx (by linarith) le_rfl hR
  have a2 := fl_rad M hw hy (by linarith) le_rfl hR
  have sz : ∀ z : ℝ, |z| ≤ B → |z * (π / 180)| ≤ 0.01746 * B := fun z hz => by
    rw [abs_mul, abs_of_pos (by positivity : 0 < π / 180), mul_comm]
    exact mul_le_mul (by linarith) hz (abs_nonneg _) (by norm_num)
  have s1 := sz x hx
  have s2 := sz y hy
  rw [e2]
  generalize M.rnd (x * M.rnd (M.rnd π / 180)) = x' at *
  generalize M.rnd (y * M.rnd (M.rnd π / 180)) = y' at *
  generalize x * (π / 180) = X at *
  generalize y * (π / 180) = Y at *
  have d1 : |(y' - x') - (Y - X)| ≤ (2 * (0.0358 * B + R)) * f.u := by
    have : (y' - x') - (Y - X) = (y' - Y) - (x' - X) := by ring
    rw [this]
    exact (abs_sub _ _).trans (by linarith)
  have d2 : |Y - X| ≤ 2 * (0.01746 * B) := (abs_sub _ _).trans (by linarith)
  have d3 := M.rnd_abs hw (B' := 2 * (0.01746 * B) + 0.001) d1 d2 (by linarith) (by linarith)
    (by linarith)
  generalize M.rnd (y' - x') = D' at *
  generalize Y - X = D at *
  have h1 : |D' / 2 - D / 2.0| ≤ (0.0358 * B + R + 0.01746 * B + 0.0005) * f.u := by
    have : D' / 2 - D / 2.0 = (D' - D) / 2 := by norm_num; ring
    rw [this, abs_div, abs_of_pos (by norm_num : (0 : ℝ) < 2), div_le_iff₀ (by norm_num)]
    linarith
  have h2 : |D / 2.0| ≤ 0.01746 * B := by
    rw [abs_div, abs_of_pos (by norm_num : (0 : ℝ) < 2.0), div_le_iff₀ (by norm_num)]
    linarith
  have h3 := M.rnd_abs hw (B' := 0.01746 * B + 0.001) h1 h2 (by linarith) (by linarith)
    (by linarith)
  have h4 := (sin_lip _ _).trans h3
  refine ((M.sin_acc _).abs_add hw (B := 1) (B' := 8.01) h4 (abs_sin_le_one _) (by linarith)
    (by norm_num) (by linarith)).trans ?_
  gcongr
  linarith

include hw in
theorem fl_distance {lat1 lon1 lat2 lon2 h : ℝ} (h1 : |lat1| ≤ 89.8) (h2 : |lat2| ≤ 89.8)
    (l1 : |lon1| ≤ 360) (l2 : |lon2| ≤ 360) (hl : -100000 ≤ h) (hh : h ≤ 1000000)
    (hd : distance np lat1 lon1 lat2 lon2 h ≤ 2.5 * (6371000 + h)) :
    |(distance (flt M) ⟨lat1⟩ ⟨lon1⟩ ⟨lat2⟩ ⟨lon2⟩ ⟨h⟩).val - distance np lat1 lon1 lat2 lon2 h| ≤
      640 * f.u * (6371000 + h) := by
  have hu := f.u_pos
  have hu' := hw.u_le'
  have e : (distance (flt M) ⟨lat1⟩ ⟨lon1⟩ ⟨lat2⟩ ⟨lon2⟩ ⟨h⟩).val =
      M.rnd (M.rnd (M.rnd 2.0 * M.arcsin (M.rnd √(M.rnd (
        M.powi (M.sin (M.rnd (M.rnd (M.rnd (lat2 * M.rnd (M.rnd π / M.rnd 180.0)) -
          M.rnd (lat1 * M.rnd (M.rnd π / M.rnd 180.0))) / M.rnd 2.0))) 2 +
        M.rnd (M.rnd (M.cos (M.rnd (lat1 * M.rnd (M.rnd π / M.rnd 180.0))) *
          M.cos (M.rnd (lat2 * M.rnd (M.rnd π / M.rnd 180.0)))) *
        M.powi (M.sin (M.rnd (M.rnd (M.rnd (lon2 * M.rnd (M.rnd π / M.rnd 180.0)) -
          M.rnd (lon1 * M.rnd (M.rnd π / M.rnd 180.0))) / M.rnd 2.0))) 2))))) *
        M.rnd (M.rnd 6371000.0 + h)) := rfl
  have e' : distance np lat1 lon1 lat2 lon2 h =
      2.0 * arcsin √(sin ((lat2 * (π / 180) - lat1 * (π / 180)) / 2.0) ^ 2 +
        cos (lat1 * (π / 180)) * cos (lat2 * (π / 180)) *
        sin ((lon2 * (π / 180) - lon1 * (π / 180)) / 2.0) ^ 2) * (6371000 + h) := by
    simp only [distance, deg2rad, rEarth, np]
    norm_num
  have e2 : M.rnd 2.0 = 2 := by
    have := M.rnd_nat hw 2 (by norm_num)
    norm_num at this ⊢; exact this
  rw [e'] at hd
  rw [e, e', rnd_180 M hw, rnd_R M hw]
  have S1 := fl_half M hw (R := 1.57) (c2 := 16) h1 h2 (by norm_num) (by norm_num)
    (by norm_num) (by norm_num)
  have S2 := fl_half M hw (R := 6.29) (c2 := 40) l1 l2 (by norm_num) (by norm_num)
    (by norm_num) (by norm_num)
  have C1 := fl_cos_lat M hw h1
  have C2 := fl_cos_lat M hw h2
  have c1l := cos_lat h1
  have c2l := cos_lat h2
  have cc : |cos (lat1 * (π / 180)) - cos (lat2 * (π / 180))| ≤
      2 * |sin ((lat2 * (π / 180) - lat1 * (π / 180)) / 2.0)| := by
    rw [cos_sub_cos, abs_mul, abs_mul]
    have : (lat1 * (π / 180) - lat2 * (π / 180)) / 2 =
      -((lat2 * (π / 180) - lat1 * (π / 180)) / 2.0) := by norm_num; ring
    rw [this, sin_neg, abs_neg, abs_neg, abs_two]
    have := abs_sin_le_one ((lat1 * (π / 180) + lat2 * (π / 180)) / 2)
    nlinarith [abs_nonneg (sin ((lat2 * (π / 180) - lat1 * (π / 180)) / 2.0))]
  rw [e2] at S1 S2 ⊢
  have c1u := cos_le_one (lat1 * (π / 180))
  have c2u := cos_le_one (lat2 * (π / 180))
  have s1u := abs_sin_le_one ((lat2 * (π / 180) - lat1 * (π / 180)) / 2.0)
  have s2u := abs_sin_le_one ((lon2 * (π / 180) - lon1 * (π / 180)) / 2.0)
  generalize M.cos (M.rnd (lat1 * M.rnd (M.rnd π / 180))) = d1 at *
  generalize M.cos (M.rnd (lat2 * M.rnd (M.rnd π / 180))) = d2 at *
  generalize M.sin (M.rnd (M.rnd (M.rnd (lat2 * M.rnd (M.rnd π / 180)) -
    M.rnd (lat1 * M.rnd (M.rnd π / 180))) / 2)) = t1 at *
  generalize M.sin (M.rnd (M.rnd (M.rnd (lon2 * M.rnd (M.rnd π / 180)) -
    M.rnd (lon1 * M.rnd (M.rnd π / 180))) / 2)) = t2 at *
  generalize cos (lat1 * (π / 180)) = c1 at *
  generalize cos (lat2 * (π / 180)) = c2 at *
  generalize sin ((lat2 * (π / 180) - lat1 * (π / 180)) / 2.0) = s1 at *
  generalize sin ((lon2 * (π / 180) - lon1 * (π / 180)) / 2.0) = s2 at *
  clear e e' l1 l2 h1 h2
  -- the root is below sin 1.25
  have R0 : 0 < 6371000 + h := by linarith
  have hX : √(s1 ^ 2 + c1 * c2 * s2 ^ 2) ≤ 0.9499 := by
    have h3 : 2.0 * arcsin √(s1 ^ 2 + c1 * c2 * s2 ^ 2) ≤ 2.5 := le_of_mul_le_mul_right hd R0
    have h4 : arcsin √(s1 ^ 2 + c1 * c2 * s2 ^ 2) ≤ 1.25 := by linarith
    have := pi_gt_d4
    exact ((arcsin_le_iff_le_sin' ⟨by linarith, by linarith⟩).1 h4).trans sin_125
  have X0 := sqrt_nonneg (s1 ^ 2 + c1 * c2 * s2 ^ 2)
  have hXY := sqrt_core hu hu' S1 S2 C1 C2 s2u c1l c2l c1u c2u cc
  have ab : ∀ {p q k : ℝ}, |p - q| ≤ k * f.u → k ≤ 1000 → p ≤ q + 0.0001 ∧ q - 0.0001 ≤ p := by
    intro p q k hpq hk
    obtain ⟨l, r⟩ := abs_le.1 hpq
    have : k * f.u ≤ 0.0001 := by nlinarith
    exact ⟨by linarith, by linarith⟩
  have t1u : |t1| ≤ 1.0001 := by
    have := ab S1 (by norm_num); have := abs_le.1 s1u
    exact abs_le.2 ⟨by linarith, by linarith⟩
  have t2u : |t2| ≤ 1.0001 := by
    have := ab S2 (by norm_num); have := abs_le.1 s2u
    exact abs_le.2 ⟨by linarith, by linarith⟩
  have k1 := ab C1 (by norm_num)
  have k2 := ab C2 (by norm_num)
  have hY := ab hXY (by norm_num)
  obtain ⟨w0, hr⟩ := fl_sqrt_sum M hw t1u t2u (by linarith) (by linarith) (by linarith)
    (by linarith) (by linarith : √(t1 ^ 2 + d1 * d2 * t2 ^ 2) ≤ 1.0001)
  generalize M.rnd √(M.rnd (M.powi t1 2 + M.rnd (M.rnd (d1 * d2) * M.powi t2 2))) = r' at *
  have hrr : |r' - √(s1 ^ 2 + c1 * c2 * s2 ^ 2)| ≤ 94.9 * f.u := by
    have : r' - √(s1 ^ 2 + c1 * c2 * s2 ^ 2) = (r' - √(t1 ^ 2 + d1 * d2 * t2 ^ 2)) +
      (√(t1 ^ 2 + d1 * d2 * t2 ^ 2) - √(s1 ^ 2 + c1 * c2 * s2 ^ 2)) := by ring
    rw [this]
    exact (abs_add_le _ _).trans (by linarith)
  generalize √(t1 ^ 2 + d1 * d2 * t2 ^ 2) = Y at *
  generalize √(s1 ^ 2 + c1 * c2 * s2 ^ 2) = X at *
  have hr3 := ab hrr (by norm_num)
  have r'u : r' ≤ 0.95 := by
    have := (abs_le.1 hrr).2
    nlinarith
  have as1 := (arcsin_lip w0 r'u X0 (by linarith)).trans
    (mul_le_mul_of_nonneg_left hrr (by norm_num : (0 : ℝ) ≤ 3.21))
  have aX : arcsin X ≤ 1.25 := by
    have h3 : 2.0 * arcsin X ≤ 2.5 := le_of_mul_le_mul_right hd R0
    linarith
  have aX0 : 0 ≤ arcsin X := arcsin_nonneg.2 X0
  have as2 := (M.arcsin_acc r' (by rw [abs_of_nonneg w0]; linarith)).abs_add hw (c := 304.7)
    (B := 1.25) (B' := 10.1) (as1.trans (by linarith)) (by rw [abs_of_nonneg aX0]; exact aX)
    (by norm_num) (by norm_num) (by norm_num)
  have as3 : |2 * M.arcsin r' - 2.0 * arcsin X| ≤ 629.6 * f.u := by
    have : 2 * M.arcsin r' - 2.0 * arcsin X = 2 * (M.arcsin r' - arcsin X) := by norm_num; ring
    rw [this, abs_mul, abs_two]
    linarith
  have as4 := M.rnd_abs hw (B := 2.5) (B' := 2.6) as3 (by
    rw [abs_of_nonneg (by positivity)]; linarith) (by norm_num) (by norm_num) (by norm_num)
  have c0 : 0 ≤ 2.0 * arcsin X := by positivity
  have cu : 2.0 * arcsin X ≤ 2.5 := by linarith
  generalize M.rnd (2 * M.arcsin r') = C' at *
  generalize 2.0 * arcsin X = C at *
  have hR := M.rnd_rel hw (x := 6371000 + h) (by
    rw [abs_of_pos R0]; exact le_trans (b := 10 ^ 7) (by linarith) (by norm_num)) (by
    rw [abs_of_pos R0]; exact le_trans (b := 1) (by norm_num) (by linarith))
  rw [abs_of_pos R0] at hR
  have Ru : 6371000 + h ≤ 10 ^ 7 := by norm_num; linarith
  have Rl : 1 ≤ 6371000 + h := by linarith
  generalize 6371000 + h = R at *
  generalize M.rnd R = R' at *
  have uR := mul_pos hu R0
  have hCR : |C' * R' - C * R| ≤ 635 * f.u * R := by
    have : C' * R' - C * R = (C' - C) * R + C' * (R' - R) := by ring
    rw [this]
    have hC' := ab as4 (by norm_num)
    have hC'' : |C'| ≤ 2.51 := abs_le.2 ⟨by linarith, by linarith⟩
    refine (abs_add_le _ _).trans ?_
    rw [abs_mul, abs_mul, abs_of_pos R0]
    have g1 := mul_le_mul_of_nonneg_right as4 R0.le
    have g2 := mul_le_mul hC'' hR (abs_nonneg _) (by norm_num)
    linarith
  have sz : |C' * R'| ≤ 2.6 * R := by
    obtain ⟨l, r⟩ := abs_le.1 hCR
    have := mul_nonneg c0 R0.le
    have := mul_le_mul_of_nonneg_right cu R0.le
    have : f.u * R ≤ 1 / 16000000 * R := mul_le_mul_of_nonneg_right hu' R0.le
    exact abs_le.2 ⟨by linarith, by linarith⟩
  have fin := M.rnd_err hw (x := C' * R') (sz.trans (by
    exact le_trans (b := 10 ^ 8) (by norm_num at Ru ⊢; linarith) (by norm_num)))
  have fin2 : |M.rnd (C' * R') - C' * R'| ≤ f.u * (2.6 * R) := by
    refine fin.trans (mul_le_mul_of_nonneg_left (max_le sz ?_) hu.le)
    exact le_trans (b := 1) (by norm_num) (by linarith)
  have : M.rnd (C' * R') - C * R = (M.rnd (C' * R') - C' * R') + (C' * R' - C * R) := by ring
  rw [this]
  exact (abs_add_le _ _).trans (by linarith)

end Verif.Geo
