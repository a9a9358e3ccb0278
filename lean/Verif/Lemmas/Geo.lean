import Verif.Model.Geo
import Verif.Spec.Sphere

namespace Verif.Geo
open Verif.Spec Real

theorem inner_globe (a l c m : ℝ) : inner ℝ (globe a l) (globe c m) =
    cos (rad a) * cos (rad c) * cos (rad m - rad l) + sin (rad a) * sin (rad c) := by
  simp only [globe, PiLp.inner_apply, Fin.sum_univ_three, RCLike.inner_apply, conj_trivial]
  simp only [Matrix.cons_val_zero, Matrix.cons_val_one, Matrix.cons_val]
  rw [cos_sub]
  ring

theorem norm_globe (a l : ℝ) : ‖globe a l‖ = 1 := by
  have h : inner ℝ (globe a l) (globe a l) = 1 := by
    rw [inner_globe, sub_self, cos_zero]
    nlinarith [sin_sq_add_cos_sq (rad a)]
  rw [real_inner_self_eq_norm_sq] at h
  have := norm_nonneg (globe a l)
  nlinarith

theorem angle_globe (a l c m : ℝ) : InnerProductGeometry.angle (globe a l) (globe c m) =
    arccos (cos (rad a) * cos (rad c) * cos (rad m - rad l) + sin (rad a) * sin (rad c)) := by
  unfold InnerProductGeometry.angle
  rw [norm_globe, norm_globe, inner_globe]
  norm_num

theorem two_arcsin_sqrt {a : ℝ} (h0 : 0 ≤ a) (h1 : a ≤ 1) :
    2 * arcsin (sqrt a) = arccos (1 - 2 * a) := by
  have hs0 : 0 ≤ sqrt a := sqrt_nonneg a
  have hs1 : sqrt a ≤ 1 := by rw [Real.sqrt_le_left (by norm_num)]; linarith
  have hc : cos (2 * arcsin (sqrt a)) = 1 - 2 * a := by
    rw [cos_two_mul, ← sin_sq_add_cos_sq (arcsin (sqrt a)), sin_arcsin (by linarith) hs1, sq_sqrt h0]
    have := sin_sq_add_cos_sq (arcsin (sqrt a))
    rw [sin_arcsin (by linarith) hs1, sq_sqrt h0] at this
    linarith
  rw [← hc, arccos_cos]
  · have := arcsin_nonneg.2 hs0; linarith
  · have := arcsin_le_pi_div_two (sqrt a); linarith

theorem inner_bounds (a l c m : ℝ) :
    -1 ≤ cos (rad a) * cos (rad c) * cos (rad m - rad l) + sin (rad a) * sin (rad c) ∧
    cos (rad a) * cos (rad c) * cos (rad m - rad l) + sin (rad a) * sin (rad c) ≤ 1 := by
  have h := abs_real_inner_le_norm (globe a l) (globe c m)
  rw [inner_globe, norm_globe, norm_globe, mul_one, abs_le] at h
  exact h

theorem mul_deg2rad (x : ℝ) : x * deg2rad np = rad x := by
  simp only [deg2rad, rad, np]
  norm_num
  ring

theorem haversine_eq (a l c m : ℝ) :
    sin ((rad c - rad a) / 2) ^ 2 + cos (rad a) * cos (rad c) * sin ((rad m - rad l) / 2) ^ 2 =
      (1 - (cos (rad a) * cos (rad c) * cos (rad m - rad l) + sin (rad a) * sin (rad c))) / 2 := by
  have e1 : sin ((rad c - rad a) / 2) ^ 2 = (1 - cos (rad c - rad a)) / 2 := by
    have h := cos_two_mul ((rad c - rad a) / 2)
    rw [mul_div_cancel₀ _ (two_ne_zero)] at h
    have := sin_sq_add_cos_sq ((rad c - rad a) / 2)
    linarith
  have e2 : sin ((rad m - rad l) / 2) ^ 2 = (1 - cos (rad m - rad l)) / 2 := by
    have h := cos_two_mul ((rad m - rad l) / 2)
    rw [mul_div_cancel₀ _ (two_ne_zero)] at h
    have := sin_sq_add_cos_sq ((rad m - rad l) / 2)
    linarith
  rw [e1, e2, cos_sub (rad c) (rad a)]
  ring

/-- The haversine formula computes the angle between the two unit vectors. -/
theorem distance_eq (lat1 lon1 lat2 lon2 h : ℝ) :
    distance np lat1 lon1 lat2 lon2 h = greatCircle lat1 lon1 lat2 lon2 h := by
  obtain ⟨b1, b2⟩ := inner_bounds lat1 lon1 lat2 lon2
  unfold greatCircle
  rw [angle_globe]
  simp only [distance, mul_deg2rad]
  simp only [np, rEarth]
  have e2 : (2.0 : ℝ) = 2 := by norm_num
  rw [e2, haversine_eq, two_arcsin_sqrt (by linarith) (by linarith)]
  rw [mul_comm]
  congr 2
  · norm_num
  · ring

/-- North component, east component and radial component of the travelled point. -/
theorem travel_coords (lat lon δ brg : ℝ) :
    let q := travel lat lon δ brg
    q 2 = sin (rad lat) * cos δ + cos (rad lat) * sin δ * cos (rad brg) ∧
    q 0 * cos (rad lon) + q 1 * sin (rad lon) =
      cos δ * cos (rad lat) - sin δ * cos (rad brg) * sin (rad lat) ∧
    q 1 * cos (rad lon) - q 0 * sin (rad lon) = sin δ * sin (rad brg) := by
  have hs := sin_sq_add_cos_sq (rad lon)
  simp only [travel, globe, north, east, PiLp.add_apply, PiLp.smul_apply, PiLp.toLp_apply,
    Matrix.cons_val_zero, Matrix.cons_val_one, Matrix.cons_val, smul_eq_mul]
  refine ⟨by ring, ?_, ?_⟩
  · linear_combination
      (cos δ * cos (rad lat) - sin δ * cos (rad brg) * sin (rad lat)) * hs
  · linear_combination (sin δ * sin (rad brg)) * hs

/-- Relative coordinates of the travelled point lie on the unit sphere. -/
theorem travel_unit (φ δ θ : ℝ) :
    (cos δ * cos φ - sin δ * cos θ * sin φ) ^ 2 + (sin δ * sin θ) ^ 2 +
      (sin φ * cos δ + cos φ * sin δ * cos θ) ^ 2 = 1 := by
  have h1 := sin_sq_add_cos_sq δ
  have h2 := sin_sq_add_cos_sq φ
  have h3 := sin_sq_add_cos_sq θ
  have e : (cos δ * cos φ - sin δ * cos θ * sin φ) ^ 2 + (sin δ * sin θ) ^ 2 +
      (sin φ * cos δ + cos φ * sin δ * cos θ) ^ 2 =
      (cos δ ^ 2 + sin δ ^ 2 * cos θ ^ 2) * (sin φ ^ 2 + cos φ ^ 2) + sin δ ^ 2 * sin θ ^ 2 := by
    ring
  rw [e, h2]
  linear_combination sin δ ^ 2 * h3 + h1

theorem rad_mul_rad2deg (x : ℝ) : rad (x * rad2deg np) = x := by
  simp only [rad2deg, rad, np]
  have := pi_ne_zero
  norm_num
  field_simp

theorem cos_rad_nonneg {lat : ℝ} (h1 : -90 ≤ lat) (h2 : lat ≤ 90) : 0 ≤ cos (rad lat) := by
  apply cos_nonneg_of_mem_Icc
  unfold rad
  have := pi_pos
  constructor <;> nlinarith

theorem cos_rad_pos {lat : ℝ} (h1 : -90 < lat) (h2 : lat < 90) : 0 < cos (rad lat) := by
  apply cos_pos_of_mem_Ioo
  unfold rad
  have := pi_pos
  constructor <;> nlinarith

/-- `cos (arg z) * |z| = re z` for the code's `arctan2`. -/
theorem cos_atan2 (y x : ℝ) : cos (atan2R y x) * sqrt (x ^ 2 + y ^ 2) = x ∧
    sin (atan2R y x) * sqrt (x ^ 2 + y ^ 2) = y := by
  have hn : ‖(⟨x, y⟩ : ℂ)‖ = sqrt (x ^ 2 + y ^ 2) := by
    rw [Complex.norm_def, Complex.normSq_mk]; congr 1; ring
  unfold atan2R
  rw [← hn]
  exact ⟨by rw [mul_comm]; exact Complex.norm_mul_cos_arg _,
    by rw [mul_comm]; exact Complex.norm_mul_sin_arg _⟩

theorem atan2_scale {k : ℝ} (hk : 0 < k) (y x : ℝ) : atan2R (k * y) (k * x) = atan2R y x := by
  unfold atan2R
  have : (⟨k * x, k * y⟩ : ℂ) = (k : ℂ) * ⟨x, y⟩ := by
    apply Complex.ext <;> simp
  rw [this, Complex.arg_real_mul _ hk]

/-- The point returned by `latlon` is the travelled point (start not at a pole). -/
theorem latlon_travel (lat lon d brg h : ℝ) (h1 : -90 < lat) (h2 : lat < 90) :
    globe (latlon np lat lon d brg h).1 (latlon np lat lon d brg h).2 =
      travel lat lon (d / (6371000 + h)) brg := by
  have hc := cos_rad_pos h1 h2
  simp only [latlon, mul_deg2rad]
  simp only [np, rEarth]
  have e0 : (6371000.0 : ℝ) = 6371000 := by norm_num
  rw [e0]
  set δ := d / (6371000 + h) with hδ
  set s := sin (rad lat) * cos δ + cos (rad lat) * sin δ * cos (rad brg) with hs
  set X := cos δ * cos (rad lat) - sin δ * cos (rad brg) * sin (rad lat) with hX
  set Y := sin δ * sin (rad brg) with hY
  have hu : X ^ 2 + Y ^ 2 + s ^ 2 = 1 := travel_unit (rad lat) δ (rad brg)
  have hs1 : s ≤ 1 := by nlinarith
  have hs2 : -1 ≤ s := by nlinarith
  have hsin : sin (arcsin s) = s := sin_arcsin hs2 hs1
  have hcos : cos (arcsin s) = sqrt (X ^ 2 + Y ^ 2) := by
    rw [cos_arcsin]; congr 1; linarith
  have ex : cos δ - sin (rad lat) * sin (arcsin s) = cos (rad lat) * X := by
    rw [hsin, hs, hX]
    linear_combination -cos δ * sin_sq_add_cos_sq (rad lat)
  have ey : sin (rad brg) * sin δ * cos (rad lat) = cos (rad lat) * Y := by rw [hY]; ring
  rw [ex, ey, atan2_scale hc]
  obtain ⟨c1, c2⟩ := cos_atan2 Y X
  obtain ⟨t1, t2, t3⟩ := travel_coords lat lon δ brg
  set q := travel lat lon δ brg with hq
  set A := atan2R Y X with hA
  have hrl : rad (arcsin s * rad2deg np) = arcsin s := rad_mul_rad2deg _
  have hrl2 : rad ((rad lon + A) * rad2deg np) = rad lon + A := rad_mul_rad2deg _
  have hll := sin_sq_add_cos_sq (rad lon)
  have q0 : q 0 = X * cos (rad lon) - Y * sin (rad lon) := by
    rw [hX, hY]
    linear_combination cos (rad lon) * t2 - sin (rad lon) * t3 - q 0 * hll
  have q1 : q 1 = X * sin (rad lon) + Y * cos (rad lon) := by
    rw [hX, hY]
    linear_combination sin (rad lon) * t2 + cos (rad lon) * t3 - q 1 * hll
  have goal : globe (arcsin s * rad2deg np) ((rad lon + A) * rad2deg np) = q := by
    unfold globe
    rw [hrl, hrl2, hsin, hcos, cos_add, sin_add]
    ext i
    fin_cases i
    · simp only [Fin.zero_eta, Matrix.cons_val_zero]
      rw [q0]; linear_combination cos (rad lon) * c1 - sin (rad lon) * c2
    · simp only [Fin.mk_one, Matrix.cons_val_one, Matrix.cons_val_zero]
      rw [q1]; linear_combination sin (rad lon) * c1 + cos (rad lon) * c2
    · simp only [Fin.reduceFinMk, Matrix.cons_val]
      rw [t1]
  exact goal

end Verif.Geo

namespace Verif.Geo
open Verif.Spec Real

theorem inner_travel (lat lon δ brg : ℝ) :
    inner ℝ (globe lat lon) (travel lat lon δ brg) = cos δ := by
  have h1 := sin_sq_add_cos_sq (rad lat)
  have h2 := sin_sq_add_cos_sq (rad lon)
  simp only [travel, globe, north, east, PiLp.inner_apply, Fin.sum_univ_three,
    RCLike.inner_apply, conj_trivial, PiLp.add_apply, PiLp.smul_apply,
    Matrix.cons_val_zero, Matrix.cons_val_one, Matrix.cons_val, smul_eq_mul]
  have e : (1 : ℝ) = sin (rad lat) ^ 2 + cos (rad lat) ^ 2 := h1.symm
  linear_combination (cos δ) * h1 +
    (cos δ * cos (rad lat) ^ 2 - sin δ * cos (rad brg) * sin (rad lat) * cos (rad lat)) * h2

/-- A point of the sphere in the local frame (up, north, east) of another point. -/
theorem frame (lat lon : ℝ) (q : EuclideanSpace ℝ (Fin 3)) :
    q = (q 0 * cos (rad lat) * cos (rad lon) + q 1 * cos (rad lat) * sin (rad lon) +
          q 2 * sin (rad lat)) • globe lat lon +
        (cos (rad lat) * q 2 - sin (rad lat) * (q 0 * cos (rad lon) + q 1 * sin (rad lon))) •
          north lat lon +
        (q 1 * cos (rad lon) - q 0 * sin (rad lon)) • east lon := by
  have h1 := sin_sq_add_cos_sq (rad lat)
  have h2 := sin_sq_add_cos_sq (rad lon)
  ext i
  fin_cases i
  · simp only [globe, north, east, PiLp.add_apply, PiLp.smul_apply, Fin.zero_eta,
      Matrix.cons_val_zero, smul_eq_mul]
    linear_combination (-q 0 * cos (rad lon) ^ 2 - q 1 * sin (rad lon) * cos (rad lon)) * h1
      - q 0 * h2
  · simp only [globe, north, east, PiLp.add_apply, PiLp.smul_apply, Fin.mk_one,
      Matrix.cons_val_one, Matrix.cons_val_zero, smul_eq_mul]
    linear_combination (-q 1 * sin (rad lon) ^ 2 - q 0 * sin (rad lon) * cos (rad lon)) * h1
      - q 1 * h2
  · simp only [globe, north, east, PiLp.add_apply, PiLp.smul_apply, Fin.reduceFinMk,
      Matrix.cons_val, smul_eq_mul]
    linear_combination (-q 2) * h1

/-- The two arguments that `bearing` gives to `arctan2` are the east and north components
of the target. -/
theorem bearing_args (lat1 lon1 lat2 lon2 : ℝ) :
    let q := globe lat2 lon2
    sin (rad lon2 - rad lon1) * cos (rad lat2) = q 1 * cos (rad lon1) - q 0 * sin (rad lon1) ∧
    cos (rad lat1) * sin (rad lat2) -
        sin (rad lat1) * cos (rad lat2) * cos (rad lon2 - rad lon1) =
      cos (rad lat1) * q 2 - sin (rad lat1) * (q 0 * cos (rad lon1) + q 1 * sin (rad lon1)) := by
  simp only [globe, Matrix.cons_val_zero, Matrix.cons_val_one, Matrix.cons_val]
  rw [sin_sub, cos_sub]
  constructor <;> ring

/-- East and north components as the code computes them. -/
noncomputable def eastC (lat1 lon1 lat2 lon2 : ℝ) : ℝ :=
  sin (rad lon2 - rad lon1) * cos (rad lat2)
noncomputable def northC (lat1 lon1 lat2 lon2 : ℝ) : ℝ :=
  cos (rad lat1) * sin (rad lat2) - sin (rad lat1) * cos (rad lat2) * cos (rad lon2 - rad lon1)

theorem bearing_eq (lat1 lon1 lat2 lon2 : ℝ) : bearing np lat1 lon1 lat2 lon2 =
    fmodR (atan2R (eastC lat1 lon1 lat2 lon2) (northC lat1 lon1 lat2 lon2) * (180 / π) + 360)
      360 := by
  simp only [bearing, mul_deg2rad, rad2deg]
  simp only [np, eastC, northC]
  have e1 : (180.0 : ℝ) = 180 := by norm_num
  have e2 : (360.0 : ℝ) = 360 := by norm_num
  rw [e1, e2]

/-- `fmod` of a non-negative number by 360. -/
theorem fmod360 {x : ℝ} (hx : 0 ≤ x) :
    0 ≤ fmodR x 360 ∧ fmodR x 360 < 360 ∧ ∃ n : ℤ, fmodR x 360 = x - 360 * n := by
  have hq : 0 ≤ x / 360 := by positivity
  simp only [fmodR, hq, if_true]
  have h1 := Int.floor_le (x / 360)
  have h2 := Int.lt_floor_add_one (x / 360)
  rw [le_div_iff₀ (by norm_num)] at h1
  rw [div_lt_iff₀ (by norm_num)] at h2
  exact ⟨by linarith, by linarith, ⌊x / 360⌋, rfl⟩

theorem deg_arg (y x : ℝ) : -180 < atan2R y x * (180 / π) ∧ atan2R y x * (180 / π) ≤ 180 := by
  have h1 := Complex.neg_pi_lt_arg ⟨x, y⟩
  have h2 := Complex.arg_le_pi ⟨x, y⟩
  have hp := pi_pos
  unfold atan2R
  constructor
  · rw [mul_div_assoc', lt_div_iff₀ hp]; nlinarith
  · rw [mul_div_assoc', div_le_iff₀ hp]; nlinarith

theorem bearing_spec (lat1 lon1 lat2 lon2 : ℝ) :
    0 ≤ bearing np lat1 lon1 lat2 lon2 ∧ bearing np lat1 lon1 lat2 lon2 < 360 ∧
    ∃ n : ℤ, bearing np lat1 lon1 lat2 lon2 =
      atan2R (eastC lat1 lon1 lat2 lon2) (northC lat1 lon1 lat2 lon2) * (180 / π) - 360 * n := by
  rw [bearing_eq]
  obtain ⟨h1, h2⟩ := deg_arg (eastC lat1 lon1 lat2 lon2) (northC lat1 lon1 lat2 lon2)
  obtain ⟨a, c, n, e⟩ := fmod360 (x := atan2R (eastC lat1 lon1 lat2 lon2)
    (northC lat1 lon1 lat2 lon2) * (180 / π) + 360) (by linarith)
  refine ⟨a, c, n - 1, ?_⟩
  rw [e]; push_cast; ring

theorem trig_rad_sub (x : ℝ) (n : ℤ) : cos (rad (x - 360 * n)) = cos (rad x) ∧
    sin (rad (x - 360 * n)) = sin (rad x) := by
  have e : rad (x - 360 * n) = rad x - n * (2 * π) := by unfold rad; ring
  rw [e]
  exact ⟨cos_sub_int_mul_two_pi _ n, sin_sub_int_mul_two_pi _ n⟩

theorem trig_bearing (lat1 lon1 lat2 lon2 : ℝ) :
    cos (rad (bearing np lat1 lon1 lat2 lon2)) =
      cos (atan2R (eastC lat1 lon1 lat2 lon2) (northC lat1 lon1 lat2 lon2)) ∧
    sin (rad (bearing np lat1 lon1 lat2 lon2)) =
      sin (atan2R (eastC lat1 lon1 lat2 lon2) (northC lat1 lon1 lat2 lon2)) := by
  obtain ⟨_, _, n, e⟩ := bearing_spec lat1 lon1 lat2 lon2
  rw [e, (trig_rad_sub _ n).1, (trig_rad_sub _ n).2]
  have : rad (atan2R (eastC lat1 lon1 lat2 lon2) (northC lat1 lon1 lat2 lon2) * (180 / π)) =
      atan2R (eastC lat1 lon1 lat2 lon2) (northC lat1 lon1 lat2 lon2) := by
    unfold rad; have := pi_ne_zero; field_simp
  rw [this]; exact ⟨rfl, rfl⟩

/-- Travelling the central angle along the computed bearing reaches the target. -/
theorem travel_bearing (lat1 lon1 lat2 lon2 : ℝ) :
    travel lat1 lon1 (InnerProductGeometry.angle (globe lat1 lon1) (globe lat2 lon2))
      (bearing np lat1 lon1 lat2 lon2) = globe lat2 lon2 := by
  set E := eastC lat1 lon1 lat2 lon2 with hE
  set N := northC lat1 lon1 lat2 lon2 with hN
  set δ := InnerProductGeometry.angle (globe lat1 lon1) (globe lat2 lon2) with hδ
  obtain ⟨b1, b2⟩ := inner_bounds lat1 lon1 lat2 lon2
  have hcos : cos δ = cos (rad lat1) * cos (rad lat2) * cos (rad lon2 - rad lon1) +
      sin (rad lat1) * sin (rad lat2) := by
    rw [hδ, angle_globe, cos_arccos b1 b2]
  have hsin0 : 0 ≤ sin δ := InnerProductGeometry.sin_angle_nonneg _ _
  have hEN : N ^ 2 + E ^ 2 = sin δ ^ 2 := by
    have h1 := sin_sq_add_cos_sq δ
    have h2 := sin_sq_add_cos_sq (rad lat1)
    have h3 := sin_sq_add_cos_sq (rad lat2)
    have h4 := sin_sq_add_cos_sq (rad lon2 - rad lon1)
    have : sin δ ^ 2 = 1 - cos δ ^ 2 := by linarith
    rw [this, hcos, hE, hN, eastC, northC]
    have c1 : cos (rad lat1) ^ 2 = 1 - sin (rad lat1) ^ 2 := by linarith
    have c2 : cos (rad lat2) ^ 2 = 1 - sin (rad lat2) ^ 2 := by linarith
    have c3 : sin (rad lon2 - rad lon1) ^ 2 = 1 - cos (rad lon2 - rad lon1) ^ 2 := by linarith
    ring_nf
    ring_nf at c1 c2 c3
    simp only [c1, c2, c3]
    ring
  have hs : sqrt (N ^ 2 + E ^ 2) = sin δ := by rw [hEN, sqrt_sq hsin0]
  obtain ⟨c1, c2⟩ := cos_atan2 E N
  rw [hs] at c1 c2
  obtain ⟨t1, t2⟩ := trig_bearing lat1 lon1 lat2 lon2
  obtain ⟨f1, f2⟩ := bearing_args lat1 lon1 lat2 lon2
  unfold travel
  rw [t1, t2, smul_add, smul_smul, smul_smul, mul_comm (sin δ), mul_comm (sin δ), ← hE, ← hN,
    c1, c2]
  conv_rhs => rw [frame lat1 lon1 (globe lat2 lon2)]
  have g1 : cos δ = (globe lat2 lon2) 0 * cos (rad lat1) * cos (rad lon1) +
      (globe lat2 lon2) 1 * cos (rad lat1) * sin (rad lon1) +
      (globe lat2 lon2) 2 * sin (rad lat1) := by
    rw [hcos, cos_sub]
    simp only [globe, Matrix.cons_val_zero, Matrix.cons_val_one, Matrix.cons_val]
    ring
  rw [← g1]
  have g2 := f1
  have g3 := f2
  simp only at g2 g3
  rw [← g2, ← g3, ← add_assoc]
  rfl

theorem norm_travel (lat lon δ brg : ℝ) : ‖travel lat lon δ brg‖ = 1 := by
  have h : ‖travel lat lon δ brg‖ ^ 2 = 1 := by
    obtain ⟨t1, t2, t3⟩ := travel_coords lat lon δ brg
    have hu := travel_unit (rad lat) δ (rad brg)
    rw [← t1, ← t2, ← t3] at hu
    rw [EuclideanSpace.norm_sq_eq, Fin.sum_univ_three]
    simp only [Real.norm_eq_abs, sq_abs]
    have h2 := sin_sq_add_cos_sq (rad lon)
    linear_combination hu - ((travel lat lon δ brg) 0 ^ 2 + (travel lat lon δ brg) 1 ^ 2) * h2
  have := norm_nonneg (travel lat lon δ brg)
  nlinarith

theorem angle_travel (lat lon δ brg : ℝ) (h0 : 0 ≤ δ) (h1 : δ ≤ π) :
    InnerProductGeometry.angle (globe lat lon) (travel lat lon δ brg) = δ := by
  unfold InnerProductGeometry.angle
  rw [inner_travel, norm_globe, norm_travel, mul_one, div_one, arccos_cos h0 h1]

end Verif.Geo
