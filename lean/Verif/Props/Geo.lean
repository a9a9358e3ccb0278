import Verif.Lemmas.Geo
import Mathlib.Analysis.Real.Pi.Bounds

/-!
# C13-C17: great-circle distance, bearing and destination
-/

namespace Verif.Props
open Verif.Geo Verif.Spec Real

/-- **C13.** `distance` is the great-circle distance of the specification, hence a metric. -/
theorem C13_distance_metric (h : ℝ) (hh : -6371000 < h) :
    (∀ a l c m, distance np a l c m h =
      (6371000 + h) * InnerProductGeometry.angle (globe a l) (globe c m)) ∧
    (∀ a l c m, 0 ≤ distance np a l c m h) ∧
    (∀ a l c m, distance np a l c m h ≤ π * (6371000 + h)) ∧
    (∀ a l c m, distance np a l c m h = distance np c m a l h) ∧
    (∀ a l, distance np a l a l h = 0) ∧
    (∀ a l c m e n, distance np a l e n h ≤ distance np a l c m h + distance np c m e n h) ∧
    (∀ a l c m, distance np a (l + 360) c m h = distance np a l c m h) ∧
    (∀ a l c m, distance np a l c m h = (6371000 + h) / 6371000 * distance np a l c m 0) ∧
    (∀ a l c m, -90 ≤ a → a ≤ 90 → -90 ≤ c → c ≤ 90 →
      (distance np a l c m h = 0 ↔
        a = c ∧ (a = 90 ∨ a = -90 ∨ ∃ n : ℤ, m = l + 360 * n))) := by
  have hR : 0 < 6371000 + h := by linarith
  have hself : ∀ a l, InnerProductGeometry.angle (globe a l) (globe a l) = 0 := by
    intro a l
    apply InnerProductGeometry.angle_self
    intro h0
    have := norm_globe a l
    rw [h0, norm_zero] at this
    norm_num at this
  refine ⟨fun a l c m => distance_eq a l c m h, ?_, ?_, ?_, ?_, ?_, ?_, ?_, ?_⟩
  · intro a l c m
    rw [distance_eq, greatCircle]
    exact mul_nonneg hR.le (InnerProductGeometry.angle_nonneg _ _)
  · intro a l c m
    rw [distance_eq, greatCircle, mul_comm]
    exact mul_le_mul_of_nonneg_right (InnerProductGeometry.angle_le_pi _ _) hR.le
  · intro a l c m
    rw [distance_eq, distance_eq, greatCircle, greatCircle, InnerProductGeometry.angle_comm]
  · intro a l
    rw [distance_eq, greatCircle, hself, mul_zero]
  · intro a l c m e n
    simp only [distance_eq, greatCircle]
    rw [← mul_add]
    exact mul_le_mul_of_nonneg_left (InnerProductGeometry.angle_le_angle_add_angle _ _ _) hR.le
  · intro a l c m
    rw [distance_eq, distance_eq, greatCircle, greatCircle]
    have : globe a (l + 360) = globe a l := by
      have e : rad (l + 360) = rad l + 2 * π := by unfold rad; ring
      unfold globe
      rw [e, cos_add_two_pi, sin_add_two_pi]
    rw [this]
  · intro a l c m
    rw [distance_eq, distance_eq, greatCircle, greatCircle]
    ring
  · intro a l c m ha1 ha2 hc1 hc2
    rw [distance_eq, greatCircle, mul_eq_zero, or_iff_right hR.ne', angle_globe]
    obtain ⟨b1, b2⟩ := inner_bounds a l c m
    rw [arccos_eq_zero]
    have hca := cos_rad_nonneg ha1 ha2
    have hcc := cos_rad_nonneg hc1 hc2
    have hp := pi_pos
    constructor
    · intro h1
      have hk : cos (rad m - rad l) ≤ 1 := cos_le_one _
      have hle : cos (rad a) * cos (rad c) * cos (rad m - rad l) ≤ cos (rad a) * cos (rad c) := by
        have := mul_nonneg hca hcc; nlinarith
      have hd : cos (rad a - rad c) = 1 := by
        have := cos_le_one (rad a - rad c)
        rw [cos_sub] at this ⊢
        linarith
      have hac : a = c := by
        obtain ⟨n, hn⟩ := (cos_eq_one_iff _).1 hd
        have e : rad a - rad c = (a - c) / 180 * π := by unfold rad; ring
        rw [e] at hn
        have hn2 : a - c = 360 * n := by
          have := mul_right_cancel₀ hp.ne' (show (n * 2 : ℝ) * π = (a - c) / 180 * π by linarith)
          linarith
        have hn0 : n = 0 := by
          have u : (n : ℝ) < 1 := by linarith
          have v : (-1 : ℝ) < n := by linarith
          have u' : n < 1 := by exact_mod_cast u
          have v' : -1 < n := by exact_mod_cast v
          omega
        rw [hn0] at hn2; push_cast at hn2; linarith
      refine ⟨hac, ?_⟩
      by_cases h90 : a = 90
      · exact Or.inl h90
      by_cases h91 : a = -90
      · exact Or.inr (Or.inl h91)
      refine Or.inr (Or.inr ?_)
      have hpos := cos_rad_pos (lat := a) (lt_of_le_of_ne ha1 (Ne.symm h91))
        (lt_of_le_of_ne ha2 h90)
      subst hac
      have hk1 : cos (rad m - rad l) = 1 := by
        have h2 := sin_sq_add_cos_sq (rad a)
        have : 0 ≤ (cos (rad a) * cos (rad a)) * (cos (rad m - rad l) - 1) := by nlinarith
        have hsq : 0 < cos (rad a) * cos (rad a) := by positivity
        have := nonneg_of_mul_nonneg_right this hsq
        linarith
      obtain ⟨n, hn⟩ := (cos_eq_one_iff _).1 hk1
      refine ⟨n, ?_⟩
      have e : rad m - rad l = (m - l) / 180 * π := by unfold rad; ring
      rw [e] at hn
      have := mul_right_cancel₀ hp.ne' (show (n * 2 : ℝ) * π = (m - l) / 180 * π by linarith)
      linarith
    · rintro ⟨rfl, h1⟩
      have h2 := sin_sq_add_cos_sq (rad a)
      rcases h1 with rfl | rfl | ⟨n, rfl⟩
      · have e : rad 90 = π / 2 := by unfold rad; ring
        rw [e, cos_pi_div_two, sin_pi_div_two]; norm_num
      · have e : rad (-90) = -(π / 2) := by unfold rad; ring
        rw [e, cos_neg, sin_neg, cos_pi_div_two, sin_pi_div_two]; norm_num
      · have e : rad (l + 360 * n) - rad l = n * (2 * π) := by unfold rad; ring
        rw [e, cos_int_mul_two_pi]
        nlinarith

/-- A quarter of the way round the equator. -/
example : distance np 0 0 0 90 0 = 6371000 * (π / 2) := by
  rw [(C13_distance_metric 0 (by norm_num)).1, angle_globe]
  have e0 : rad 0 = 0 := by unfold rad; simp
  have e1 : rad 90 = π / 2 := by unfold rad; ring
  rw [e0, e1]
  simp

/-- **C14.** The destination point is at the requested distance. -/
theorem C14_destination_distance (lat lon d brg h : ℝ) (h1 : -90 ≤ lat) (h2 : lat ≤ 90)
    (hh : -6371000 < h) (hd0 : 0 ≤ d) (hd1 : d ≤ π * (6371000 + h)) :
    distance np lat lon (latlon np lat lon d brg h).1 (latlon np lat lon d brg h).2 h = d := by
  have hR : 0 < 6371000 + h := by linarith
  have hδ0 : 0 ≤ d / (6371000 + h) := by positivity
  have hδ1 : d / (6371000 + h) ≤ π := by rw [div_le_iff₀ hR]; exact hd1
  rw [distance_eq, greatCircle]
  rcases lt_or_eq_of_le h1 with h1 | h1
  · rcases lt_or_eq_of_le h2 with h2 | h2
    · rw [latlon_travel lat lon d brg h h1 h2, angle_travel lat lon _ brg hδ0 hδ1]
      field_simp
    · subst h2
      have e : rad 90 = π / 2 := by unfold rad; ring
      rw [angle_globe, e, cos_pi_div_two, sin_pi_div_two]
      have : rad (latlon np 90 lon d brg h).1 = arcsin (cos (d / (6371000 + h))) := by
        simp only [latlon, mul_deg2rad, e]
        simp only [np, sin_pi_div_two, cos_pi_div_two, rEarth]
        have e0 : (6371000.0 : ℝ) = 6371000 := by norm_num
        rw [e0]
        have := rad_mul_rad2deg (arcsin (cos (d / (6371000 + h))))
        simp only [np] at this
        simpa using this
      rw [this, sin_arcsin (neg_one_le_cos _) (cos_le_one _), zero_mul, zero_mul, zero_add,
        one_mul, arccos_cos hδ0 hδ1]
      field_simp
  · subst h1
    have e : rad (-90) = -(π / 2) := by unfold rad; ring
    rw [angle_globe, e, cos_neg, sin_neg, cos_pi_div_two, sin_pi_div_two]
    have : rad (latlon np (-90) lon d brg h).1 = arcsin (-cos (d / (6371000 + h))) := by
      simp only [latlon, mul_deg2rad, e]
      simp only [np, sin_neg, cos_neg, sin_pi_div_two, cos_pi_div_two, rEarth]
      have e0 : (6371000.0 : ℝ) = 6371000 := by norm_num
      rw [e0]
      have := rad_mul_rad2deg (arcsin (-cos (d / (6371000 + h))))
      simp only [np] at this
      simpa using this
    rw [this, sin_arcsin (by linarith [cos_le_one (d / (6371000 + h))])
      (by linarith [neg_one_le_cos (d / (6371000 + h))]), zero_mul, zero_mul, zero_add,
      neg_one_mul, neg_neg, arccos_cos hδ0 hδ1]
    field_simp

/-- 1000 km from Delft to the north-east. -/
example : distance np 52 4.37 (latlon np 52 4.37 1000000 45 0).1
    (latlon np 52 4.37 1000000 45 0).2 0 = 1000000 := by
  have := pi_gt_three
  exact C14_destination_distance 52 4.37 1000000 45 0 (by norm_num) (by norm_num) (by norm_num)
    (by norm_num) (by nlinarith)

/-- **C15.** The destination point lies in the requested direction: the bearing to it is
the requested bearing reduced to `[0, 360)`. -/
theorem C15_destination_bearing (lat lon d brg h : ℝ) (h1 : -90 < lat) (h2 : lat < 90)
    (hh : -6371000 < h) (hd0 : 0 < d) (hd1 : d < π * (6371000 + h)) :
    bearing np lat lon (latlon np lat lon d brg h).1 (latlon np lat lon d brg h).2 =
      brg - 360 * ⌊brg / 360⌋ := by
  have hR : 0 < 6371000 + h := by linarith
  set δ := d / (6371000 + h) with hδ
  have hδ0 : 0 < δ := by positivity
  have hδ1 : δ < π := by rw [hδ, div_lt_iff₀ hR]; exact hd1
  have hs : 0 < sin δ := sin_pos_of_pos_of_lt_pi hδ0 hδ1
  set lat2 := (latlon np lat lon d brg h).1
  set lon2 := (latlon np lat lon d brg h).2
  have hq : globe lat2 lon2 = travel lat lon δ brg := latlon_travel lat lon d brg h h1 h2
  obtain ⟨t1, t2, t3⟩ := travel_coords lat lon δ brg
  obtain ⟨f1, f2⟩ := bearing_args lat lon lat2 lon2
  simp only at t1 t2 t3 f1 f2
  rw [hq] at f1 f2
  have hE : eastC lat lon lat2 lon2 = sin δ * sin (rad brg) := by rw [eastC, f1, t3]
  have hN : northC lat lon lat2 lon2 = sin δ * cos (rad brg) := by
    rw [northC, f2, t2, t1]
    linear_combination (sin δ * cos (rad brg)) * sin_sq_add_cos_sq (rad lat)
  obtain ⟨b0, b1, n, bn⟩ := bearing_spec lat lon lat2 lon2
  obtain ⟨c1, c2⟩ := trig_bearing lat lon lat2 lon2
  rw [hE, hN, atan2_scale hs] at c1 c2
  obtain ⟨g1, g2⟩ := cos_atan2 (sin (rad brg)) (cos (rad brg))
  rw [cos_sq_add_sin_sq, sqrt_one, mul_one] at g1 g2
  rw [g1] at c1
  rw [g2] at c2
  set β := bearing np lat lon lat2 lon2
  have hone : cos (rad brg - rad β) = 1 := by
    rw [cos_sub, c1, c2]; nlinarith [sin_sq_add_cos_sq (rad brg)]
  obtain ⟨m, hm⟩ := (cos_eq_one_iff _).1 hone
  have hp := pi_pos
  have e : rad brg - rad β = (brg - β) / 180 * π := by unfold rad; ring
  rw [e] at hm
  have hm2 := mul_right_cancel₀ hp.ne' (show (m * 2 : ℝ) * π = (brg - β) / 180 * π by linarith)
  have hfl : ⌊brg / 360⌋ = m := by
    rw [Int.floor_eq_iff]
    constructor
    · rw [le_div_iff₀ (by norm_num)]; linarith
    · rw [div_lt_iff₀ (by norm_num)]; linarith
  rw [hfl]; linarith

example : bearing np 52 4.37 (latlon np 52 4.37 1000000 405 0).1
    (latlon np 52 4.37 1000000 405 0).2 = 45 := by
  have := pi_gt_three
  rw [C15_destination_bearing 52 4.37 1000000 405 0 (by norm_num) (by norm_num) (by norm_num)
    (by norm_num) (by nlinarith)]
  norm_num

/-- **C16.** `bearing` is a compass angle in `[0, 360)`: travelling the central angle
between the points along it reaches the second point; north is 0, south 180; adding 360
to a longitude changes nothing. -/
theorem C16_bearing_compass :
    (∀ a l c m, 0 ≤ bearing np a l c m ∧ bearing np a l c m < 360) ∧
    (∀ a l c m, travel a l (InnerProductGeometry.angle (globe a l) (globe c m))
      (bearing np a l c m) = globe c m) ∧
    (∀ a c l, a < c → c < a + 180 → bearing np a l c l = 0) ∧
    (∀ a c l, c < a → a < c + 180 → bearing np a l c l = 180) ∧
    (∀ a l c m, bearing np a (l + 360) c m = bearing np a l c m) ∧
    (∀ a l c m, bearing np a l c (m + 360) = bearing np a l c m) := by
  have hp := pi_pos
  have hv : ∀ a c l, eastC a l c l = 0 ∧ northC a l c l = sin ((c - a) / 180 * π) := by
    intro a c l
    have e : (c - a) / 180 * π = rad c - rad a := by unfold rad; ring
    rw [eastC, northC, sub_self, sin_zero, cos_zero, e, sin_sub]
    exact ⟨by ring, by ring⟩
  refine ⟨fun a l c m => ⟨(bearing_spec a l c m).1, (bearing_spec a l c m).2.1⟩,
    travel_bearing, ?_, ?_, ?_, ?_⟩
  · intro a c l h1 h2
    rw [bearing_eq, (hv a c l).1, (hv a c l).2]
    have hs : 0 < sin ((c - a) / 180 * π) := by
      apply sin_pos_of_pos_of_lt_pi
      · have : 0 < (c - a) / 180 := by linarith
        positivity
      · have : (c - a) / 180 < 1 := by linarith
        nlinarith
    have : atan2R 0 (sin ((c - a) / 180 * π)) = 0 := Complex.arg_ofReal_of_nonneg hs.le
    rw [this]
    norm_num [fmodR]
  · intro a c l h1 h2
    rw [bearing_eq, (hv a c l).1, (hv a c l).2]
    have hs : sin ((c - a) / 180 * π) < 0 := by
      have : 0 < sin (-((c - a) / 180 * π)) := by
        apply sin_pos_of_pos_of_lt_pi
        · have : (c - a) / 180 < 0 := by linarith
          nlinarith
        · have : -((c - a) / 180) < 1 := by linarith
          nlinarith
      rw [sin_neg] at this; linarith
    have : atan2R 0 (sin ((c - a) / 180 * π)) = π := Complex.arg_ofReal_of_neg hs
    rw [this]
    have e : π * (180 / π) + 360 = 540 := by field_simp; norm_num
    rw [e]
    have h15 : ⌊(540 / 360 : ℝ)⌋ = 1 := by
      rw [Int.floor_eq_iff]; norm_num
    simp only [fmodR]
    rw [if_pos (by norm_num), h15]
    norm_num
  · intro a l c m
    rw [bearing_eq, bearing_eq]
    have e : rad m - rad (l + 360) = rad m - rad l - 2 * π := by unfold rad; ring
    simp only [eastC, northC, e, sin_sub_two_pi, cos_sub_two_pi]
  · intro a l c m
    rw [bearing_eq, bearing_eq]
    have e : rad (m + 360) - rad l = rad m - rad l + 2 * π := by unfold rad; ring
    simp only [eastC, northC, e, sin_add_two_pi, cos_add_two_pi]

example : bearing np 10 5 20 5 = 0 ∧ bearing np 20 5 10 5 = 180 :=
  ⟨C16_bearing_compass.2.2.1 10 20 5 (by norm_num) (by norm_num),
    C16_bearing_compass.2.2.2.1 20 10 5 (by norm_num) (by norm_num)⟩

/-- **C17.** Destination latitude is in `[-90, 90]`, destination longitude within 180° of
the start longitude. -/
theorem C17_destination_bounded (lat lon d brg h : ℝ) :
    -90 ≤ (latlon np lat lon d brg h).1 ∧ (latlon np lat lon d brg h).1 ≤ 90 ∧
    |(latlon np lat lon d brg h).2 - lon| ≤ 180 := by
  have hp := pi_pos
  have e : ∀ x : ℝ, x * rad2deg np = x * (180 / π) := by
    intro x; simp only [rad2deg, np]; norm_num
  simp only [latlon, e, mul_deg2rad]
  simp only [np]
  refine ⟨?_, ?_, ?_⟩
  · have := neg_pi_div_two_le_arcsin (sin (rad lat) * cos (d / (rEarth + h)) +
      cos (rad lat) * sin (d / (rEarth + h)) * cos (rad brg))
    rw [mul_div_assoc', le_div_iff₀ hp]; nlinarith
  · have := arcsin_le_pi_div_two (sin (rad lat) * cos (d / (rEarth + h)) +
      cos (rad lat) * sin (d / (rEarth + h)) * cos (rad brg))
    rw [mul_div_assoc', div_le_iff₀ hp]; nlinarith
  · generalize sin (rad brg) * sin (d / (rEarth + h)) * cos (rad lat) = Y
    generalize cos (d / (rEarth + h)) - _ = X
    obtain ⟨h1, h2⟩ := deg_arg Y X
    have e2 : (rad lon + atan2R Y X) * (180 / π) - lon = atan2R Y X * (180 / π) := by
      unfold rad; field_simp; ring
    rw [e2, abs_le]
    exact ⟨h1.le, h2⟩

/-- The longitude is not wrapped: from 179°E on the equator, one eighth of the globe to the
east, `latlon` reports 224°, not -136°. -/
theorem C17_not_normalised :
    (latlon np 0 179 (6371000 * (π / 4)) 90 0).2 = 224 := by
  have hp := pi_pos
  have e0 : rad 0 = 0 := by unfold rad; simp
  have e1 : rad 90 = π / 2 := by unfold rad; ring
  simp only [latlon, mul_deg2rad, e0, e1]
  simp only [np, rad2deg, rEarth]
  have e2 : (6371000 * (π / 4)) / (6371000.0 + 0) = π / 4 := by norm_num
  rw [e2, sin_zero, cos_zero, sin_pi_div_two, cos_pi_div_two, sin_pi_div_four, cos_pi_div_four]
  have e3 : atan2R (1 * (√2 / 2) * 1) (√2 / 2 - 0 * sin (arcsin (0 * (√2 / 2) + 1 * (√2 / 2) * 0)))
      = π / 4 := by
    have h := atan2_scale (k := √2 / 2) (by positivity) 1 1
    have e4 : atan2R 1 1 = π / 4 := by
      have h5 := Complex.arg_of_re_nonneg (x := ⟨1, 1⟩) (by norm_num)
      unfold atan2R
      rw [h5, Complex.norm_def, Complex.normSq_mk]
      norm_num
      rw [← sin_pi_div_four.trans (show √2 / 2 = (√2)⁻¹ by
        rw [div_eq_iff (by norm_num), inv_mul_eq_div, eq_div_iff (by positivity)]; norm_num)]
      exact arcsin_sin (by linarith) (by linarith)
    rw [← e4, ← h]
    congr 1 <;> ring
  rw [e3]
  unfold rad
  field_simp
  norm_num

end Verif.Props
