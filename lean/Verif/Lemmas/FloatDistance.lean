import Verif.Lemmas.FloatThrust
import Verif.Lemmas.FloatGeo
import Mathlib.Analysis.SpecialFunctions.Trigonometric.Bounds
import Mathlib.Analysis.SpecialFunctions.Trigonometric.InverseDeriv
import Mathlib.Analysis.Calculus.MeanValue
import Mathlib.Analysis.Real.Pi.Bounds

/-!
# Great-circle distance in floating point, near the poles and near antipodal points

The error of the haversine `a` is at most a multiple of `u √a + u²`, so that of `√a` is a multiple of `u`
however near the points are.
-/

namespace Verif.GeoFar
open Verif Verif.Geo Real

section Arith
variable {u : ℝ} (hu : 0 < u) (hu' : u ≤ 1 / 16000000)
include hu hu'

/-- The square of a sine. -/
theorem sq_err {x x' z p : ℝ} (h : |x' - x| ≤ p * u) (hx : |x| ≤ 1) (hp : p ≤ 1000)
    (hz : |x' ^ 2| ≤ 4 → |z - x' ^ 2| ≤ 8 * u * (|x' ^ 2| + u)) :
    |z - x ^ 2| ≤ (2 * p + 9) * (u * |x|) + (p ^ 2 + 9) * (u * u) := by
  have hp0 : 0 ≤ p := nonneg_of_mul_nonneg_left ((abs_nonneg _).trans h) hu
  have hX := abs_nonneg x
  have hpu : p * u ≤ 1 / 16000 := by nlinarith
  have hpu0 : 0 ≤ p * u := by positivity
  have e1 : |x' ^ 2 - x ^ 2| ≤ p * u * (2 * |x| + p * u) := by
    rw [show x' ^ 2 - x ^ 2 = (x' - x) * (2 * x + (x' - x)) by ring, abs_mul]
    refine mul_le_mul h ?_ (abs_nonneg _) hpu0
    refine (abs_add_le _ _).trans ?_
    rw [abs_mul, abs_two]
    linarith
  have e0 : x ^ 2 ≤ |x| := by rw [← sq_abs]; nlinarith
  have e2 : x' ^ 2 ≤ |x| + p * u * (2 * |x| + p * u) := by
    have := (abs_le.1 e1).2
    linarith
  have e3 : p * u * (2 * |x| + p * u) ≤ 1 := by nlinarith
  have e4 := hz (by rw [abs_of_nonneg (sq_nonneg _)]; linarith)
  rw [abs_of_nonneg (sq_nonneg x')] at e4
  have a1 : p * u * (u * |x|) ≤ 1 / 16000 * (u * |x|) :=
    mul_le_mul_of_nonneg_right hpu (by positivity)
  have a2 : p * u * (p * (u * u)) ≤ 1 / 16000 * (p * (u * u)) :=
    mul_le_mul_of_nonneg_right hpu (by positivity)
  have a3 : p * (u * u) ≤ 1000 * (u * u) := mul_le_mul_of_nonneg_right hp (by positivity)
  have a4 : 0 ≤ u * u := by positivity
  have a5 : 0 ≤ u * |x| := by positivity
  calc |z - x ^ 2| = |(z - x' ^ 2) + (x' ^ 2 - x ^ 2)| := by ring_nf
    _ ≤ 8 * u * (x' ^ 2 + u) + p * u * (2 * |x| + p * u) := (abs_add_le _ _).trans (add_le_add e4 e1)
    _ ≤ 8 * u * ((|x| + p * u * (2 * |x| + p * u)) + u) + p * u * (2 * |x| + p * u) := by gcongr
    _ ≤ _ := by nlinarith

/-- The product of the cosines. -/
theorem cos_err {c d c' d' z : ℝ} (h1 : |c' - c| ≤ 13.1 * u) (h2 : |d' - d| ≤ 13.1 * u) (hc : 0 ≤ c)
    (hc1 : c ≤ 1) (hd : 0 ≤ d) (hd1 : d ≤ 1)
    (hz : |c' * d'| ≤ 4 → |z - c' * d'| ≤ u * (|c' * d'| + u)) :
    |z - c * d| ≤ 14.2 * (u * (c + d)) + 174 * (u * u) := by
  have a4 : 0 ≤ u * u := by positivity
  have a5 : 0 ≤ u * (c + d) := by positivity
  have e1 : |c' * d' - c * d| ≤ 13.1 * (u * (c + d)) + 171.61 * (u * u) := by
    rw [show c' * d' - c * d = (c' - c) * d + (c * (d' - d) + (c' - c) * (d' - d)) by ring]
    refine (abs_add_le _ _).trans ?_
    have := abs_add_le (c * (d' - d)) ((c' - c) * (d' - d))
    have b1 : |(c' - c) * d| ≤ 13.1 * u * d := by
      rw [abs_mul, abs_of_nonneg hd]; exact mul_le_mul_of_nonneg_right h1 hd
    have b2 : |c * (d' - d)| ≤ c * (13.1 * u) := by
      rw [abs_mul, abs_of_nonneg hc]; exact mul_le_mul_of_nonneg_left h2 hc
    have b3 : |(c' - c) * (d' - d)| ≤ 13.1 * u * (13.1 * u) := by
      rw [abs_mul]; exact mul_le_mul h1 h2 (abs_nonneg _) (by positivity)
    nlinarith
  have b0 : c * d ≤ c + d := by nlinarith
  have e2 : |c' * d'| ≤ (c + d) + (13.1 * (u * (c + d)) + 171.61 * (u * u)) := by
    calc |c' * d'| = |c * d + (c' * d' - c * d)| := by ring_nf
      _ ≤ |c * d| + |c' * d' - c * d| := abs_add_le _ _
      _ ≤ _ := by rw [abs_of_nonneg (mul_nonneg hc hd)]; linarith
  have e3 := hz (by nlinarith)
  have a6 : u * (u * (c + d)) ≤ 1 / 16000000 * (u * (c + d)) := mul_le_mul_of_nonneg_right hu' a5
  have a7 : u * (u * u) ≤ 1 / 16000000 * (u * u) := mul_le_mul_of_nonneg_right hu' a4
  calc |z - c * d| = |(z - c' * d') + (c' * d' - c * d)| := by ring_nf
    _ ≤ u * (|c' * d'| + u) + (13.1 * (u * (c + d)) + 171.61 * (u * u)) :=
        (abs_add_le _ _).trans (add_le_add e3 e1)
    _ ≤ u * (((c + d) + (13.1 * (u * (c + d)) + 171.61 * (u * u))) + u) +
        (13.1 * (u * (c + d)) + 171.61 * (u * u)) := by gcongr
    _ ≤ _ := by nlinarith

/-- The second summand. -/
theorem prod_err {c d Q G T z S : ℝ} (hG : |G - c * d| ≤ 14.2 * (u * (c + d)) + 174 * (u * u))
    (hT : |T - Q ^ 2| ≤ 91 * (u * |Q|) + 1690 * (u * u)) (hc : 0 ≤ c) (hc1 : c ≤ 1) (hd : 0 ≤ d)
    (hd1 : d ≤ 1) (hQ : |Q| ≤ 1) (hS : S ≤ 1) (k1 : (c + d) * |Q| ≤ 2 * S) (k2 : c * d * |Q| ≤ S)
    (hz : |G * T| ≤ 4 → |z - G * T| ≤ u * (|G * T| + u)) :
    |z - c * d * Q ^ 2| ≤ 121 * (u * S) + 1870 * (u * u) := by
  have hq := abs_nonneg Q
  have hq2 : Q ^ 2 ≤ |Q| := by rw [← sq_abs]; nlinarith
  have hg : 0 ≤ c * d := mul_nonneg hc hd
  have hS0 : 0 ≤ S := (mul_nonneg hg hq).trans k2
  have hs : 0 ≤ c + d := add_nonneg hc hd
  have a4 : 0 ≤ u * u := by positivity
  have a5 : 0 ≤ u * S := by positivity
  have a6 : u * (u * S) ≤ 1 / 16000000 * (u * S) := mul_le_mul_of_nonneg_right hu' a5
  have a7 : u * (u * u) ≤ 1 / 16000000 * (u * u) := mul_le_mul_of_nonneg_right hu' a4
  have T1 : |T| ≤ |Q| + (91 * (u * |Q|) + 1690 * (u * u)) := by
    calc |T| = |Q ^ 2 + (T - Q ^ 2)| := by ring_nf
      _ ≤ |Q ^ 2| + |T - Q ^ 2| := abs_add_le _ _
      _ ≤ _ := by rw [abs_of_nonneg (sq_nonneg Q)]; linarith
  have T2 : |T| ≤ 1.001 := by nlinarith
  -- the error of `G`, split so that `c + d` meets `|Q|`
  have b1 : u * (c + d) * |T| ≤ 2.01 * (u * S) + 0.001 * (u * u) := by
    have m1 : u * (c + d) * |T| ≤ u * (c + d) * (|Q| + (91 * (u * |Q|) + 1690 * (u * u))) := by gcongr
    have m2 : u * ((c + d) * |Q|) ≤ u * (2 * S) := mul_le_mul_of_nonneg_left k1 hu.le
    have m3 : u * (u * ((c + d) * |Q|)) ≤ u * (u * (2 * S)) := mul_le_mul_of_nonneg_left m2 hu.le
    have m4 : u * (u * u) * (c + d) ≤ u * (u * u) * 2 :=
      mul_le_mul_of_nonneg_left (by linarith) (by positivity)
    nlinarith
  have b2 : |(G - c * d) * T| ≤ 28.6 * (u * S) + 174.3 * (u * u) := by
    rw [abs_mul]
    have m1 : |G - c * d| * |T| ≤ (14.2 * (u * (c + d)) + 174 * (u * u)) * |T| :=
      mul_le_mul_of_nonneg_right hG (abs_nonneg _)
    have m2 : u * u * |T| ≤ u * u * 1.001 := mul_le_mul_of_nonneg_left T2 a4
    nlinarith
  have b3 : |c * d * (T - Q ^ 2)| ≤ 91 * (u * S) + 1690 * (u * u) := by
    rw [abs_mul, abs_of_nonneg hg]
    have m1 : c * d * |T - Q ^ 2| ≤ c * d * (91 * (u * |Q|) + 1690 * (u * u)) :=
      mul_le_mul_of_nonneg_left hT hg
    have m2 : u * (c * d * |Q|) ≤ u * S := mul_le_mul_of_nonneg_left k2 hu.le
    have m3 : c * d * (u * u) ≤ 1 * (u * u) := mul_le_mul_of_nonneg_right (by nlinarith) a4
    nlinarith
  have b4 : |G * T - c * d * Q ^ 2| ≤ 119.6 * (u * S) + 1866 * (u * u) := by
    rw [show G * T - c * d * Q ^ 2 = (G - c * d) * T + c * d * (T - Q ^ 2) by ring]
    refine (abs_add_le _ _).trans ?_
    nlinarith
  have b5 : c * d * Q ^ 2 ≤ S := by
    have : c * d * Q ^ 2 ≤ c * d * |Q| := mul_le_mul_of_nonneg_left hq2 hg
    linarith
  have b6 : |G * T| ≤ S + (119.6 * (u * S) + 1866 * (u * u)) := by
    calc |G * T| = |c * d * Q ^ 2 + (G * T - c * d * Q ^ 2)| := by ring_nf
      _ ≤ |c * d * Q ^ 2| + |G * T - c * d * Q ^ 2| := abs_add_le _ _
      _ ≤ _ := by rw [abs_of_nonneg (mul_nonneg hg (sq_nonneg Q))]; linarith
  have b7 := hz (by nlinarith)
  calc |z - c * d * Q ^ 2| = |(z - G * T) + (G * T - c * d * Q ^ 2)| := by ring_nf
    _ ≤ u * (|G * T| + u) + (119.6 * (u * S) + 1866 * (u * u)) :=
        (abs_add_le _ _).trans (add_le_add b7 b4)
    _ ≤ u * ((S + (119.6 * (u * S) + 1866 * (u * u))) + u) + (119.6 * (u * S) + 1866 * (u * u)) := by
        gcongr
    _ ≤ _ := by nlinarith

/-- The haversine and its root. -/
theorem root_err {P R S t r z w : ℝ} (h1 : |t - P ^ 2| ≤ 43 * (u * |P|) + 298 * (u * u))
    (h2 : |r - R| ≤ 121 * (u * S) + 1870 * (u * u)) (hS0 : 0 ≤ S) (hS : S ≤ 1)
    (hP : |P| ≤ S) (e : S ^ 2 = P ^ 2 + R) (hz : |t + r| ≤ 4 → |z - (t + r)| ≤ u * (|t + r| + u))
    (hww : |√z| ≤ 4 → |w - √z| ≤ u * (|√z| + u)) :
    |w - S| ≤ 182 * u := by
  have a4 : 0 ≤ u * u := by positivity
  have a5 : 0 ≤ u * S := by positivity
  have a6 : u * (u * S) ≤ 1 / 16000000 * (u * S) := mul_le_mul_of_nonneg_right hu' a5
  have a7 : u * (u * u) ≤ 1 / 16000000 * (u * u) := mul_le_mul_of_nonneg_right hu' a4
  have a8 : u * |P| ≤ u * S := mul_le_mul_of_nonneg_left hP hu.le
  have b1 : |(t + r) - S ^ 2| ≤ 164 * (u * S) + 2168 * (u * u) := by
    rw [show (t + r) - S ^ 2 = (t - P ^ 2) + (r - R) by rw [e]; ring]
    refine (abs_add_le _ _).trans ?_
    linarith
  have b2 : |t + r| ≤ S + (164 * (u * S) + 2168 * (u * u)) := by
    calc |t + r| = |S ^ 2 + ((t + r) - S ^ 2)| := by ring_nf
      _ ≤ |S ^ 2| + |(t + r) - S ^ 2| := abs_add_le _ _
      _ ≤ _ := by rw [abs_of_nonneg (sq_nonneg S)]; nlinarith
  have b3 := hz (by nlinarith)
  have b4 : |z - S ^ 2| ≤ 165.1 * (u * S) + 2170 * (u * u) := by
    calc |z - S ^ 2| = |(z - (t + r)) + ((t + r) - S ^ 2)| := by ring_nf
      _ ≤ u * (|t + r| + u) + (164 * (u * S) + 2168 * (u * u)) :=
          (abs_add_le _ _).trans (add_le_add b3 b1)
      _ ≤ u * ((S + (164 * (u * S) + 2168 * (u * u))) + u) + (164 * (u * S) + 2168 * (u * u)) := by gcongr
      _ ≤ _ := by nlinarith
  obtain ⟨b5, b6⟩ := abs_le.1 b4
  have c1 : √z ≤ S + 180 * u := by
    refine Real.sqrt_le_iff.2 ⟨by positivity, ?_⟩
    nlinarith
  have c2 : S - 180 * u ≤ √z := by
    by_cases h : S ≤ 180 * u
    · have := Real.sqrt_nonneg z
      linarith
    · push Not at h
      refine Real.le_sqrt_of_sq_le ?_
      have : u * (180 * u) ≤ u * S := mul_le_mul_of_nonneg_left h.le hu.le
      nlinarith
  have c3 : |√z| ≤ 1.001 := by rw [abs_of_nonneg (Real.sqrt_nonneg z)]; linarith
  have c4 := hww (by linarith)
  have c5 : |√z - S| ≤ 180 * u := abs_le.2 ⟨by linarith, by linarith⟩
  calc |w - S| = |(w - √z) + (√z - S)| := by ring_nf
    _ ≤ u * (|√z| + u) + 180 * u := (abs_add_le _ _).trans (add_le_add c4 c5)
    _ ≤ u * (1.001 + u) + 180 * u := by gcongr
    _ ≤ _ := by nlinarith

omit hu hu' in
theorem arcsin_lip {x y k : ℝ} (hk : 0 < k) (hx : k ^ 2 ≤ 1 - x ^ 2) (hy : k ^ 2 ≤ 1 - y ^ 2) :
    |arcsin x - arcsin y| ≤ 1 / k * |x - y| := by
  have key : ∀ t ∈ Set.Icc (-√(1 - k ^ 2)) √(1 - k ^ 2), k ^ 2 ≤ 1 - t ^ 2 := by
    intro t ht
    have h0 : 0 ≤ 1 - k ^ 2 := by nlinarith [sq_nonneg x]
    have := sq_le_sq.2 (show |t| ≤ |√(1 - k ^ 2)| by
      rw [abs_of_nonneg (Real.sqrt_nonneg _)]; exact abs_le.2 ht)
    rw [Real.sq_sqrt h0] at this
    linarith
  have mem : ∀ t, k ^ 2 ≤ 1 - t ^ 2 → t ∈ Set.Icc (-√(1 - k ^ 2)) √(1 - k ^ 2) := fun t ht =>
    abs_le.1 (Real.abs_le_sqrt (by linarith))
  have := (convex_Icc (-√(1 - k ^ 2)) √(1 - k ^ 2)).norm_image_sub_le_of_norm_hasDerivWithin_le
    (f := arcsin) (f' := fun t => 1 / √(1 - t ^ 2)) (C := 1 / k) (x := y) (y := x)
    (fun t ht => (hasDerivAt_arcsin (by have := key t ht; rintro rfl; nlinarith)
      (by have := key t ht; rintro rfl; nlinarith)).hasDerivWithinAt)
    (fun t ht => by
      have h := key t ht
      have : k ≤ √(1 - t ^ 2) := Real.le_sqrt_of_sq_le h
      rw [Real.norm_of_nonneg (by positivity)]
      exact one_div_le_one_div_of_le hk this) (mem y hy) (mem x hx)
  simpa only [Real.norm_eq_abs] using this

end Arith

/-- The haversine in `Geo.distance`. -/
def hav {α : Type} [Add α] [Sub α] [Mul α] [Div α] [Neg α] [OfScientific α] [Pow α ℕ] (b : Backend α)
    (lat1 lon1 lat2 lon2 : α) : α :=
  b.sin ((lat2 * deg2rad b - lat1 * deg2rad b) / 2.0) ^ 2 +
    b.cos (lat1 * deg2rad b) * b.cos (lat2 * deg2rad b) *
      b.sin ((lon2 * deg2rad b - lon1 * deg2rad b) / 2.0) ^ 2

theorem distance_hav {α : Type} [Add α] [Sub α] [Mul α] [Div α] [Neg α] [OfScientific α] [Pow α ℕ]
    (b : Backend α) (lat1 lon1 lat2 lon2 h : α) :
    distance b lat1 lon1 lat2 lon2 h =
      2.0 * b.arcsin (b.sqrt (hav b lat1 lon1 lat2 lon2)) * (rEarth + h) := rfl

section Float
variable {f : Format} (M : Machine f) (hw : f.Wide)
include hw

theorem rnd_mix {x : ℝ} (hx : |x| ≤ 4) : |M.rnd x - x| ≤ f.u * (|x| + f.u) := by
  have hu := f.u_pos
  refine (M.rnd_err hw (hx.trans (by norm_num))).trans (mul_le_mul_of_nonneg_left ?_ hu.le)
  have : (2 : ℝ) ^ (-126 : ℤ) ≤ f.u := by
    unfold Format.u
    refine zpow_le_zpow_right₀ (by norm_num) ?_
    have := hw.quad
    omega
  exact max_le (by linarith) (by linarith [abs_nonneg x])

theorem acc_mix {z x : ℝ} (h : f.Acc z x) (hx : |x| ≤ 4) : |z - x| ≤ 8 * f.u * (|x| + f.u) := by
  have hu := f.u_pos
  refine (h.abs_err hw (hx.trans (by norm_num))).trans (mul_le_mul_of_nonneg_left ?_ (by positivity))
  have : (2 : ℝ) ^ (-126 : ℤ) ≤ f.u := by
    unfold Format.u
    refine zpow_le_zpow_right₀ (by norm_num) ?_
    have := hw.quad
    omega
  exact max_le (by linarith) (by linarith [abs_nonneg x])

/-- Degrees to radians. -/
theorem fl_rad {x X : ℝ} (hx : |x| ≤ X) (hX : X ≤ 360) :
    Ab f (0.0541 * X + 0.001) (0.0174533 * X) ((⟨x⟩ : Fl M) * deg2rad (flt M)).val (x * (π / 180)) := by
  have hpi := Real.pi_gt_d6
  have hpi' := Real.pi_lt_d6
  have X0 : 0 ≤ X := (abs_nonneg x).trans hx
  have a1 : Ap f.u 1.01 2 (M.rnd π) π := Ap.lit M hw (by norm_num; linarith) (by norm_num; linarith) (by norm_num)
  have a2 : M.rnd (180.0 : ℝ) = 180 := by
    have := M.rnd_nat hw 180 (by norm_num)
    norm_num at this ⊢
    exact this
  have a3 : Ap f.u 0 8 (180 : ℝ) 180 := Ap.exact (by norm_num) (by norm_num)
  have a4 := (a1.div a3).rnd M hw (by norm_num) (by norm_num)
  have a5 : Ab f 0.0358 0.0174533 (M.rnd (M.rnd π / 180)) (π / 180) :=
    Ab.of_ap hw a4 (by norm_num) (by norm_num) (by linarith) (by norm_num)
  have a6 := (Ab.exact (f := f) hx).mul hw a5
  have a7 := Ab.rnd M hw (c' := 0.0541 * X + 0.001) a6 (by linarith) (by linarith) (by linarith)
  have : ((⟨x⟩ : Fl M) * deg2rad (flt M)).val = M.rnd (x * M.rnd (M.rnd π / M.rnd (180.0 : ℝ))) := rfl
  rw [this, a2]
  refine a7.le ?_
  refine a7.bound.trans (by linarith)

/-- Sine of half a difference of angles. -/
theorem fl_half {x y X Y c B c' : ℝ} (hx : Ab f c B x X) (hy : Ab f c B y Y) (hB : B ≤ 10) (hc : c ≤ 100)
    (hk : c + 2 * B + 8.01 ≤ c') :
    Ab f c' 1 (M.sin (M.rnd (M.rnd (y - x) / M.rnd (2.0 : ℝ)))) (Real.sin ((Y - X) / 2)) := by
  have c0 := hx.nonneg
  have B0 : 0 ≤ B := (abs_nonneg _).trans hx.bound
  have a2 : M.rnd (2.0 : ℝ) = 2 := by
    have := M.rnd_nat hw 2 (by norm_num)
    norm_num at this ⊢
    exact this
  have h1 := Ab.rnd M hw (c' := 2 * c + 2 * B + 0.001) (hy.sub hx) (by linarith) (by linarith)
    (by linarith)
  have h2 : Ab f (c + B + 0.0005) B (M.rnd (y - x) / 2) ((Y - X) / 2) := by
    refine ⟨?_, ?_⟩
    · rw [← sub_div, abs_div, abs_two]
      linarith [h1.err]
    · rw [abs_div, abs_two]
      linarith [h1.bound]
  have h3 := Ab.rnd M hw (c' := c + 2 * B + 0.001) h2 (by linarith) (by linarith) (by linarith)
  have h4 : Ab f (c + 2 * B + 0.001) 1 (Real.sin (M.rnd (M.rnd (y - x) / 2))) (Real.sin ((Y - X) / 2)) :=
    ⟨(abs_sin_sub_sin_le _ _).trans h3.err, abs_sin_le_one _⟩
  rw [a2]
  exact Ab.lib hw (M.sin_acc _) h4 (by linarith) (by norm_num) (by linarith)

/-- Cosine of a latitude. -/
theorem fl_coslat {x X : ℝ} (hx : Ab f 4.87 1.570797 x X) : Ab f 13.1 1 (M.cos x) (Real.cos X) := by
  have h : Ab f 4.87 1 (Real.cos x) (Real.cos X) :=
    ⟨(abs_cos_sub_cos_le _ _).trans hx.err, abs_cos_le_one _⟩
  exact Ab.lib hw (M.cos_acc _) h (by norm_num) (by norm_num) (by norm_num)

omit hw in
/-- The exact haversine. -/
theorem hav_np (lat1 lon1 lat2 lon2 : ℝ) : hav np lat1 lon1 lat2 lon2 =
    Real.sin ((lat2 * (π / 180) - lat1 * (π / 180)) / 2) ^ 2 +
      Real.cos (lat1 * (π / 180)) * Real.cos (lat2 * (π / 180)) *
        Real.sin ((lon2 * (π / 180) - lon1 * (π / 180)) / 2) ^ 2 := by
  unfold hav deg2rad
  rw [show (180.0 : ℝ) = 180 by norm_num, show (2.0 : ℝ) = 2 by norm_num]
  rfl

omit hw in
theorem cos_lat_nonneg {x : ℝ} (h : |x| ≤ 90) : 0 ≤ Real.cos (x * (π / 180)) := by
  obtain ⟨h1, h2⟩ := abs_le.1 h
  have := Real.pi_pos
  exact Real.cos_nonneg_of_mem_Icc ⟨by nlinarith, by nlinarith⟩

theorem fl_root {lat1 lon1 lat2 lon2 : ℝ} (h1 : |lat1| ≤ 90) (h2 : |lat2| ≤ 90) (h3 : |lon1| ≤ 360)
    (h4 : |lon2| ≤ 360) (hS : hav np lat1 lon1 lat2 lon2 ≤ 1) :
    |((flt M).sqrt (hav (flt M) ⟨lat1⟩ ⟨lon1⟩ ⟨lat2⟩ ⟨lon2⟩)).val - √(hav np lat1 lon1 lat2 lon2)| ≤
      182 * f.u := by
  have hu := f.u_pos
  have hu' := hw.u_le'
  have a1 := fl_rad M hw h1 (by norm_num)
  have a2 := fl_rad M hw h2 (by norm_num)
  have a3 := fl_rad M hw h3 le_rfl
  have a4 := fl_rad M hw h4 le_rfl
  have b1 := fl_coslat M hw (a1.mono (c' := 4.87) (by norm_num) |>.le (a1.bound.trans (by norm_num)))
  have b2 := fl_coslat M hw (a2.mono (c' := 4.87) (by norm_num) |>.le (a2.bound.trans (by norm_num)))
  have b3 := fl_half M hw (c' := 17) a1 a2 (by norm_num) (by norm_num) (by norm_num)
  have b4 := fl_half M hw (c' := 41) a3 a4 (by norm_num) (by norm_num) (by norm_num)
  have c1 := cos_lat_nonneg h1
  have c2 := cos_lat_nonneg h2
  have hcc : |Real.cos (lat1 * (π / 180)) - Real.cos (lat2 * (π / 180))| ≤
      2 * |Real.sin ((lat2 * (π / 180) - lat1 * (π / 180)) / 2)| := by
    rw [abs_sub_comm, Real.cos_sub_cos, abs_mul, abs_mul, abs_neg, abs_two]
    have := abs_sin_le_one ((lat2 * (π / 180) + lat1 * (π / 180)) / 2)
    have := abs_nonneg (Real.sin ((lat2 * (π / 180) - lat1 * (π / 180)) / 2))
    nlinarith
  rw [hav_np] at hS ⊢
  have hcos1 := Real.cos_le_one (lat1 * (π / 180))
  have hcos2 := Real.cos_le_one (lat2 * (π / 180))
  have e : ((flt M).sqrt (hav (flt M) ⟨lat1⟩ ⟨lon1⟩ ⟨lat2⟩ ⟨lon2⟩)).val =
      M.rnd (√(M.rnd (M.powi (M.sin (M.rnd (M.rnd (((⟨lat2⟩ : Fl M) * deg2rad (flt M)).val -
        ((⟨lat1⟩ : Fl M) * deg2rad (flt M)).val) / M.rnd (2.0 : ℝ)))) 2 +
        M.rnd (M.rnd (M.cos ((⟨lat1⟩ : Fl M) * deg2rad (flt M)).val *
          M.cos ((⟨lat2⟩ : Fl M) * deg2rad (flt M)).val) *
          M.powi (M.sin (M.rnd (M.rnd (((⟨lon2⟩ : Fl M) * deg2rad (flt M)).val -
        ((⟨lon1⟩ : Fl M) * deg2rad (flt M)).val) / M.rnd (2.0 : ℝ)))) 2)))) := rfl
  rw [e]
  generalize ((⟨lat1⟩ : Fl M) * deg2rad (flt M)).val = x1 at *
  generalize ((⟨lat2⟩ : Fl M) * deg2rad (flt M)).val = x2 at *
  generalize M.sin (M.rnd (M.rnd (x2 - x1) / M.rnd (2.0 : ℝ))) = P' at *
  generalize M.sin (M.rnd (M.rnd (((⟨lon2⟩ : Fl M) * deg2rad (flt M)).val -
    ((⟨lon1⟩ : Fl M) * deg2rad (flt M)).val) / M.rnd (2.0 : ℝ))) = Q' at *
  generalize Real.sin ((lat2 * (π / 180) - lat1 * (π / 180)) / 2) = P at *
  generalize Real.sin ((lon2 * (π / 180) - lon1 * (π / 180)) / 2) = Q at *
  generalize Real.cos (lat1 * (π / 180)) = c at *
  generalize Real.cos (lat2 * (π / 180)) = d at *
  generalize M.cos x1 = c' at *
  generalize M.cos x2 = d' at *
  have hR : 0 ≤ c * d * Q ^ 2 := by positivity
  have hn : 0 ≤ P ^ 2 + c * d * Q ^ 2 := by positivity
  have hSS := Real.sq_sqrt hn
  have hS0 := Real.sqrt_nonneg (P ^ 2 + c * d * Q ^ 2)
  have hS1 : √(P ^ 2 + c * d * Q ^ 2) ≤ 1 := Real.sqrt_le_iff.2 ⟨by norm_num, by linarith⟩
  have hP : |P| ≤ √(P ^ 2 + c * d * Q ^ 2) := Real.abs_le_sqrt (by linarith)
  have hQ0 := abs_nonneg Q
  have k1 : (c + d) * |Q| ≤ 2 * √(P ^ 2 + c * d * Q ^ 2) := by
    refine (sq_le_sq₀ (by positivity) (by positivity)).1 ?_
    rw [mul_pow, mul_pow, hSS, sq_abs]
    have g1 : (c - d) ^ 2 ≤ 4 * P ^ 2 := by
      have := sq_le_sq' (by linarith [abs_nonneg (c - d), abs_nonneg P]) hcc
      rw [sq_abs, mul_pow, sq_abs] at this
      linarith
    have g2 : Q ^ 2 ≤ 1 := by rw [← sq_abs]; nlinarith [b4.bound]
    have g3 : (c - d) ^ 2 * Q ^ 2 ≤ (c - d) ^ 2 * 1 := mul_le_mul_of_nonneg_left g2 (sq_nonneg _)
    nlinarith
  have k2 : c * d * |Q| ≤ √(P ^ 2 + c * d * Q ^ 2) := by
    refine Real.le_sqrt_of_sq_le ?_
    rw [mul_pow, sq_abs]
    have : c * d ≤ 1 := by nlinarith
    have : c * d * (c * d) ≤ c * d * 1 := mul_le_mul_of_nonneg_left this (by positivity)
    nlinarith [sq_nonneg Q, sq_nonneg P]
  have s1 := sq_err hu hu' b3.err b3.bound (by norm_num) (fun h => acc_mix hw (M.powi_acc P' 2) h)
  have s3 := sq_err hu hu' b4.err b4.bound (by norm_num) (fun h => acc_mix hw (M.powi_acc Q' 2) h)
  have s2 := cos_err hu hu' b1.err b2.err c1 hcos1 c2 hcos2 (fun h => rnd_mix M hw h)
  norm_num at s1 s3
  have s4 := prod_err hu hu' s2 s3 c1 hcos1 c2 hcos2 b4.bound hS1 k1 k2 (fun h => rnd_mix M hw h)
  exact root_err hu hu' s1 s4 hS0 hS1 hP hSS (fun h => rnd_mix M hw h) (fun h => rnd_mix M hw h)

/-- The root is taken of a number that is not negative. -/
theorem fl_hav_nonneg {lat1 lon1 lat2 lon2 : ℝ} (h1 : |lat1| ≤ 89.999) (h2 : |lat2| ≤ 89.999)
    (h3 : |lon1| ≤ 360) (h4 : |lon2| ≤ 360) :
    0 ≤ (hav (flt M) ⟨lat1⟩ ⟨lon1⟩ ⟨lat2⟩ ⟨lon2⟩).val := by
  have hu := f.u_pos
  have hu' := hw.u_le'
  have key : ∀ {x : ℝ}, |x| ≤ 89.999 → 0 ≤ M.cos ((⟨x⟩ : Fl M) * deg2rad (flt M)).val ∧
      M.cos ((⟨x⟩ : Fl M) * deg2rad (flt M)).val ≤ 2 := by
    intro x h
    have a := fl_rad M hw (h.trans (show (89.999 : ℝ) ≤ 90 by norm_num)) (by norm_num)
    have b := (fl_coslat M hw (a.mono (c' := 4.87) (by norm_num) |>.le (a.bound.trans (by norm_num)))).err
    have hpi := Real.pi_pos
    have hx : |x * (π / 180)| = |x| * (π / 180) := by rw [abs_mul, abs_of_pos (by positivity : 0 < π / 180)]
    have c := Real.one_sub_mul_le_cos (x := |x| * (π / 180)) (by positivity)
      (by nlinarith)
    rw [← hx, Real.cos_abs, hx] at c
    have d : 2 / π * (|x| * (π / 180)) = |x| / 90 := by field_simp; ring
    rw [d] at c
    obtain ⟨g1, g2⟩ := abs_le.1 b
    have := Real.cos_le_one (x * (π / 180))
    have : |x| / 90 ≤ 89.999 / 90 := by linarith
    norm_num at this
    exact ⟨by linarith, by linarith⟩
  have pos : ∀ {x X p : ℝ}, Ab f p 1 x X → p ≤ 41 → 0 ≤ M.powi x 2 ∧ M.powi x 2 ≤ 2 := by
    intro x X p hx hp
    refine ⟨?_, ?_⟩
    · obtain ⟨p1, p2, -⟩ := M.powi_acc x 2
      rcases (sq_nonneg x).eq_or_lt with h | h
      · rw [p1 h.symm]
      · exact nonneg_of_mul_nonneg_left p2 h
    · have := sq_err hu hu' (hx.mono hp).err hx.bound (by norm_num)
        (fun h => acc_mix hw (M.powi_acc x 2) h)
      norm_num at this
      have g1 := (abs_le.1 this).2
      have hb := hx.bound
      have g2 : X ^ 2 ≤ 1 := by rw [← sq_abs]; nlinarith [abs_nonneg X]
      have g3 : f.u * |X| ≤ f.u * 1 := mul_le_mul_of_nonneg_left hb hu.le
      nlinarith
  have rn : ∀ x : ℝ, 0 ≤ x → x ≤ 100 → 0 ≤ M.rnd x ∧ M.rnd x ≤ 101 := by
    intro x h0 h
    refine ⟨M.rnd_nonneg hw h0 (h.trans (by norm_num)), ?_⟩
    have := M.rnd_err hw (x := x) (by rw [abs_of_nonneg h0]; exact h.trans (by norm_num))
    have m : Max.max |x| ((2 : ℝ) ^ (-126 : ℤ)) ≤ 100 :=
      max_le (by rwa [abs_of_nonneg h0]) (by norm_num)
    have := (abs_le.1 this).2
    nlinarith
  have a1 := fl_rad M hw (h1.trans (show (89.999 : ℝ) ≤ 90 by norm_num)) (by norm_num)
  have a2 := fl_rad M hw (h2.trans (show (89.999 : ℝ) ≤ 90 by norm_num)) (by norm_num)
  have a3 := fl_rad M hw h3 le_rfl
  have a4 := fl_rad M hw h4 le_rfl
  have b3 := fl_half M hw (c' := 17) a1 a2 (by norm_num) (by norm_num) (by norm_num)
  have b4 := fl_half M hw (c' := 41) a3 a4 (by norm_num) (by norm_num) (by norm_num)
  have e : (hav (flt M) ⟨lat1⟩ ⟨lon1⟩ ⟨lat2⟩ ⟨lon2⟩).val =
      M.rnd (M.powi (M.sin (M.rnd (M.rnd (((⟨lat2⟩ : Fl M) * deg2rad (flt M)).val -
        ((⟨lat1⟩ : Fl M) * deg2rad (flt M)).val) / M.rnd (2.0 : ℝ)))) 2 +
        M.rnd (M.rnd (M.cos ((⟨lat1⟩ : Fl M) * deg2rad (flt M)).val *
          M.cos ((⟨lat2⟩ : Fl M) * deg2rad (flt M)).val) *
          M.powi (M.sin (M.rnd (M.rnd (((⟨lon2⟩ : Fl M) * deg2rad (flt M)).val -
        ((⟨lon1⟩ : Fl M) * deg2rad (flt M)).val) / M.rnd (2.0 : ℝ)))) 2)) := rfl
  rw [e]
  obtain ⟨p1, p2⟩ := pos b3 (by norm_num)
  obtain ⟨q1, q2⟩ := pos b4 le_rfl
  obtain ⟨c1, c2⟩ := key h1
  obtain ⟨d1, d2⟩ := key h2
  obtain ⟨r1, r2⟩ := rn _ (mul_nonneg c1 d1) (by nlinarith)
  have r3 : M.rnd (M.cos ((⟨lat1⟩ : Fl M) * deg2rad (flt M)).val *
          M.cos ((⟨lat2⟩ : Fl M) * deg2rad (flt M)).val) ≤ 5 := by
    have m := mul_le_mul c2 d2 d1 (by norm_num : (0 : ℝ) ≤ 2)
    have := (abs_le.1 (rnd_mix M hw (by rw [abs_of_nonneg (mul_nonneg c1 d1)]; linarith))).2
    rw [abs_of_nonneg (mul_nonneg c1 d1)] at this
    nlinarith
  have m2 := mul_le_mul r3 q2 q1 (by norm_num : (0 : ℝ) ≤ 5)
  obtain ⟨s1, s2⟩ := rn _ (mul_nonneg r1 q1) (by linarith)
  refine M.rnd_nonneg hw (add_nonneg p1 s1) ?_
  exact le_trans (b := (103 : ℝ)) (by linarith) (by norm_num)

/-- The last multiplication. -/
theorem last_err {C c R' R h K : ℝ} (hR : R = 6371000 + h) (hh : 0 ≤ h) (hh' : h ≤ 100000) (K1 : 1 ≤ K)
    (K3 : K * f.u ≤ 1 / 20000) (e1 : |C - c| ≤ (368.03 * K + 28.4) * f.u) (e2 : |c| ≤ 2 * 1.570797)
    (e3 : |R' - R| ≤ (R + 1) * f.u) :
    |M.rnd (C * R') - c * R| ≤ (370 * K + 36) * R * f.u := by
  have hu := f.u_pos
  have hu' := hw.u_le'
  have R0 : 6371000 ≤ R := by linarith
  have R9 : R ≤ 6471000 := by linarith
  have C1 : |C| ≤ 3.2 := by
    calc |C| = |c + (C - c)| := by ring_nf
      _ ≤ |c| + |C - c| := abs_add_le _ _
      _ ≤ 2 * 1.570797 + (368.03 * K + 28.4) * f.u := add_le_add e2 e1
      _ ≤ _ := by linarith
  have R1 : |R'| ≤ 1.001 * R := by
    calc |R'| = |R + (R' - R)| := by ring_nf
      _ ≤ |R| + |R' - R| := abs_add_le _ _
      _ ≤ R + (R + 1) * f.u := by rw [abs_of_pos (by linarith : 0 < R)]; linarith
      _ ≤ _ := by nlinarith
  have x1 : |C * R'| ≤ 3.21 * R := by
    rw [abs_mul]
    calc |C| * |R'| ≤ 3.2 * (1.001 * R) := mul_le_mul C1 R1 (abs_nonneg _) (by norm_num)
      _ ≤ _ := by linarith
  have x2 := M.rnd_err hw (x := C * R') (x1.trans (le_trans (b := (10 : ℝ) ^ 9) (by linarith) (by norm_num)))
  have x3 : Max.max |C * R'| ((2 : ℝ) ^ (-126 : ℤ)) ≤ 3.21 * R :=
    max_le x1 (le_trans (b := (1 : ℝ)) (by norm_num) (by linarith))
  have x4 : |C * R' - c * R| ≤ (368.03 * K + 28.4) * f.u * R + 3.2 * ((R + 1) * f.u) := by
    rw [show C * R' - c * R = (C - c) * R + C * (R' - R) by ring]
    refine (abs_add_le _ _).trans (add_le_add ?_ ?_)
    · rw [abs_mul, abs_of_pos (by linarith : 0 < R)]
      exact mul_le_mul_of_nonneg_right e1 (by linarith)
    · rw [abs_mul]
      exact mul_le_mul C1 e3 (abs_nonneg _) (by norm_num)
  have x5 : 368.03 * (K * R) ≤ 370 * (K * R) := by
    have : 0 ≤ K * R := by positivity
    linarith
  calc |M.rnd (C * R') - c * R| = |(M.rnd (C * R') - C * R') + (C * R' - c * R)| := by ring_nf
    _ ≤ f.u * (3.21 * R) + ((368.03 * K + 28.4) * f.u * R + 3.2 * ((R + 1) * f.u)) :=
        (abs_add_le _ _).trans (add_le_add (x2.trans (mul_le_mul_of_nonneg_left x3 hu.le)) x4)
    _ = (368.03 * (K * R) + 34.81 * R + 3.2) * f.u := by ring
    _ ≤ (370 * K + 36) * R * f.u := by
        refine mul_le_mul_of_nonneg_right ?_ hu.le
        linarith

/-- The distance, away from antipodal points. -/
theorem fl_distance {lat1 lon1 lat2 lon2 h k : ℝ} (h1 : |lat1| ≤ 90) (h2 : |lat2| ≤ 90)
    (h3 : |lon1| ≤ 360) (h4 : |lon2| ≤ 360) (hh : 0 ≤ h) (hh' : h ≤ 100000) (hk : 1e-6 ≤ k) (hk1 : k ≤ 1)
    (hku : 20000 * f.u ≤ k ^ 2) (hS : k ^ 2 ≤ 1 - hav np lat1 lon1 lat2 lon2) :
    |((flt M).sqrt (hav (flt M) ⟨lat1⟩ ⟨lon1⟩ ⟨lat2⟩ ⟨lon2⟩)).val| ≤ 1 ∧
    |(distance (flt M) ⟨lat1⟩ ⟨lon1⟩ ⟨lat2⟩ ⟨lon2⟩ ⟨h⟩).val - distance np lat1 lon1 lat2 lon2 h| ≤
      (370 / k + 36) * (6371000 + h) * f.u := by
  have hu := f.u_pos
  have hu' := hw.u_le'
  have hpi := Real.pi_gt_d6
  have hpi' := Real.pi_lt_d6
  have hk6 := hk
  replace hk : 0 < k := lt_of_lt_of_le (by norm_num) hk
  have r := fl_root M hw h1 h2 h3 h4 (by nlinarith)
  have e : (distance (flt M) ⟨lat1⟩ ⟨lon1⟩ ⟨lat2⟩ ⟨lon2⟩ ⟨h⟩).val =
      M.rnd (M.rnd (M.rnd (2.0 : ℝ) * M.arcsin ((flt M).sqrt (hav (flt M) ⟨lat1⟩ ⟨lon1⟩ ⟨lat2⟩ ⟨lon2⟩)).val) *
        M.rnd (M.rnd (6371000.0 : ℝ) + h)) := rfl
  have e' : distance np lat1 lon1 lat2 lon2 h =
      2 * arcsin (√(hav np lat1 lon1 lat2 lon2)) * (6371000 + h) := by
    rw [distance_hav]
    unfold rEarth
    rw [show (2.0 : ℝ) = 2 by norm_num, show (6371000.0 : ℝ) = 6371000 by norm_num]
    rfl
  have l1 : M.rnd (2.0 : ℝ) = 2 := by
    have := M.rnd_nat hw 2 (by norm_num)
    norm_num at this ⊢
    exact this
  have l2 : M.rnd (6371000.0 : ℝ) = 6371000 := by
    have := M.rnd_nat hw 6371000 (by norm_num)
    norm_num at this ⊢
    exact this
  have hn : 0 ≤ hav np lat1 lon1 lat2 lon2 := by
    rw [hav_np]
    have := cos_lat_nonneg h1
    have := cos_lat_nonneg h2
    positivity
  rw [e, e', l1, l2]
  generalize ((flt M).sqrt (hav (flt M) ⟨lat1⟩ ⟨lon1⟩ ⟨lat2⟩ ⟨lon2⟩)).val = w at *
  have hs := Real.sqrt_nonneg (hav np lat1 lon1 lat2 lon2)
  have hss := Real.sq_sqrt hn
  rw [← hss] at hS
  generalize √(hav np lat1 lon1 lat2 lon2) = S at *
  have hS1 : S ≤ 1 := by nlinarith
  have hw2 : (0.99 * k) ^ 2 ≤ 1 - w ^ 2 := by
    obtain ⟨g1, g2⟩ := abs_le.1 r
    have : w ^ 2 ≤ S ^ 2 + 365 * f.u := by
      have : w ^ 2 - S ^ 2 = (w - S) * (w + S) := by ring
      nlinarith
    nlinarith
  have lip := arcsin_lip (k := 0.99 * k) (by linarith) hw2 (by nlinarith : _ ≤ 1 - S ^ 2)
  have hw1 : |w| ≤ 1 := by
    rw [← sq_le_one_iff_abs_le_one]
    nlinarith
  have b1 : Ab f (184 / k) 1.570797 (arcsin w) (arcsin S) := by
    refine ⟨lip.trans ?_, ?_⟩
    · calc 1 / (0.99 * k) * |w - S| ≤ 1 / (0.99 * k) * (182 * f.u) := by gcongr
        _ = 182 / 0.99 / k * f.u := by field_simp
        _ ≤ _ := by gcongr; norm_num
    · exact abs_le.2 ⟨by linarith [neg_pi_div_two_le_arcsin S], by linarith [arcsin_le_pi_div_two S]⟩
  have hK : 184 / k = 184 * k⁻¹ := div_eq_mul_inv _ _
  have hK' : 370 / k = 370 * k⁻¹ := div_eq_mul_inv _ _
  have K1 : 1 ≤ k⁻¹ := (one_le_inv₀ hk).2 hk1
  have K2 : k⁻¹ ≤ 10 ^ 6 := by
    have := inv_anti₀ (by norm_num) hk6
    norm_num at this ⊢
    exact this
  have K3 : k⁻¹ * f.u ≤ 1 / 20000 := by
    have : k⁻¹ * k = 1 := inv_mul_cancel₀ hk.ne'
    have g : k⁻¹ * (20000 * f.u) ≤ k⁻¹ * k ^ 2 := mul_le_mul_of_nonneg_left hku (by positivity)
    have : k⁻¹ * k ^ 2 = k := by rw [pow_two, ← mul_assoc, this, one_mul]
    linarith
  rw [hK] at b1
  rw [hK']
  refine ⟨hw1, ?_⟩
  generalize k⁻¹ = K at *
  have b2 := Ab.lib hw (c' := 184.01 * K + 12.6) (M.arcsin_acc w hw1) b1 (by linarith) (by norm_num)
    (by linarith)
  have b3 := (Ab.exact (f := f) (b := 2) (B := 2) (by norm_num)).mul hw b2
  have b4 := Ab.rnd M hw (c' := 368.03 * K + 28.4) b3 (by linarith) (by norm_num) (by linarith)
  have b5 := Ab.rnd M hw (c' := 6371001 + h)
    (Ab.exact (f := f) (b := 6371000 + h) (B := 6371000 + h) (by rw [abs_of_nonneg (by linarith)]))
    (by norm_num) (by linarith) (by linarith)
  have e1 := b4.err
  have e2 := b4.bound
  have e3 := b5.err
  generalize M.rnd (2 * M.arcsin w) = C at *
  generalize M.rnd (6371000 + h) = R' at *
  generalize 2 * arcsin S = c at *
  exact last_err M hw rfl hh hh' K1 K3 e1 e2 (by rwa [show (6371001 : ℝ) + h = 6371000 + h + 1 by ring] at e3)

end Float
end Verif.GeoFar
