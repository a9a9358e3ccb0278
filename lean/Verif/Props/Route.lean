import Verif.Props.Geo

/-!
# C119: following a great circle
-/

namespace Verif.Props
open Verif.Geo Verif.Spec Real

/-- Two points travelled to in the same direction are as far apart as the distances travelled. -/
theorem inner_travel_travel (lat lon δ ε brg : ℝ) :
    inner ℝ (travel lat lon δ brg) (travel lat lon ε brg) = cos (ε - δ) := by
  have h1 := sin_sq_add_cos_sq (rad lat)
  have h2 := sin_sq_add_cos_sq (rad lon)
  have h3 := sin_sq_add_cos_sq (rad brg)
  simp only [travel, globe, north, east, PiLp.inner_apply, Fin.sum_univ_three,
    RCLike.inner_apply, conj_trivial, PiLp.add_apply, PiLp.smul_apply,
    Matrix.cons_val_zero, Matrix.cons_val_one, Matrix.cons_val, smul_eq_mul]
  rw [cos_sub]
  generalize sin (rad lat) = s1 at *
  generalize cos (rad lat) = c1 at *
  generalize sin (rad lon) = s2 at *
  generalize cos (rad lon) = c2 at *
  generalize sin (rad brg) = s3 at *
  generalize cos (rad brg) = c3 at *
  have e1 : c1 ^ 2 = 1 - s1 ^ 2 := by linarith
  have e2 : c2 ^ 2 = 1 - s2 ^ 2 := by linarith
  have e3 : c3 ^ 2 = 1 - s3 ^ 2 := by linarith
  ring_nf
  simp only [e1, e2, e3]
  ring

/-- **C119** Distance and bearing lead back: flying the distance to a place along the bearing to
it ends at that place. -/
theorem C119_arrive (a l c m h : ℝ) (hh : -6371000 < h) (a1 : -90 < a) (a2 : a < 90)
    (c1 : -90 ≤ c) (c2 : c ≤ 90) :
    let q := latlon np a l (distance np a l c m h) (bearing np a l c m) h
    q.1 = c ∧ (c = 90 ∨ c = -90 ∨ ∃ n : ℤ, q.2 = m + 360 * n) := by
  intro q
  have hR : 0 < 6371000 + h := by linarith
  obtain ⟨d0, -, -, -, dself, -, -, -, diff⟩ := C13_distance_metric h hh
  have hg : globe q.1 q.2 = globe c m := by
    rw [latlon_travel a l _ _ h a1 a2, d0, mul_div_cancel_left₀ _ hR.ne']
    exact C16_bearing_compass.2.1 a l c m
  obtain ⟨b1, b2, -⟩ := C17_destination_bounded a l (distance np a l c m h) (bearing np a l c m) h
  have h0 : distance np c m q.1 q.2 h = 0 := by
    have := dself c m
    rw [d0] at this ⊢
    rwa [hg]
  obtain ⟨e1, e2⟩ := (diff c m q.1 q.2 c1 c2 b1 b2).1 h0
  exact ⟨e1.symm, e2⟩

/-- **C119** Points on one track are as far apart as the distances flown to them, up to half the
circumference. -/
theorem C119_track (a l b h s t : ℝ) (hh : -6371000 < h) (a1 : -90 < a) (a2 : a < 90)
    (hst : |t - s| ≤ π * (6371000 + h)) :
    distance np (latlon np a l s b h).1 (latlon np a l s b h).2
      (latlon np a l t b h).1 (latlon np a l t b h).2 h = |t - s| := by
  have hR : 0 < 6371000 + h := by linarith
  rw [(C13_distance_metric h hh).1, latlon_travel a l _ _ h a1 a2, latlon_travel a l _ _ h a1 a2]
  unfold InnerProductGeometry.angle
  rw [inner_travel_travel, norm_travel, norm_travel, mul_one, div_one, ← sub_div, ← cos_abs,
    abs_div, abs_of_pos hR, arccos_cos (by positivity) (by rw [div_le_iff₀ hR]; exact hst)]
  field_simp

/-- **C119** A place part of the way along splits the distance. -/
theorem C119_between (a l c m h s : ℝ) (hh : -6371000 < h) (a1 : -90 < a) (a2 : a < 90)
    (hs0 : 0 ≤ s) (hs1 : s ≤ distance np a l c m h) :
    let q := latlon np a l s (bearing np a l c m) h
    distance np a l q.1 q.2 h = s ∧ distance np q.1 q.2 c m h = distance np a l c m h - s := by
  intro q
  have hR : 0 < 6371000 + h := by linarith
  obtain ⟨d0, dn, dmax, -⟩ := C13_distance_metric h hh
  refine ⟨C14_destination_distance a l s _ h a1.le a2.le hh hs0 (hs1.trans (dmax _ _ _ _)), ?_⟩
  have hg : globe (latlon np a l (distance np a l c m h) (bearing np a l c m) h).1
      (latlon np a l (distance np a l c m h) (bearing np a l c m) h).2 = globe c m := by
    rw [latlon_travel a l _ _ h a1 a2, d0, mul_div_cancel_left₀ _ hR.ne']
    exact C16_bearing_compass.2.1 a l c m
  have ht := C119_track a l (bearing np a l c m) h s (distance np a l c m h) hh a1 a2 (by
    rw [abs_of_nonneg (by linarith)]
    have := dmax a l c m
    linarith)
  rw [abs_of_nonneg (by linarith), d0, hg, ← d0] at ht
  exact ht

/-- **C119** Flying on from a point of the track by the bearing to a later point follows it. -/
theorem C119_continue (a l b h s t : ℝ) (hh : -6371000 < h) (a1 : -90 < a) (a2 : a < 90)
    (hst : s ≤ t) (ht : t - s ≤ π * (6371000 + h))
    (p1 : (latlon np a l s b h).1 ≠ 90) (p2 : (latlon np a l s b h).1 ≠ -90) :
    let p := latlon np a l s b h
    let q := latlon np a l t b h
    let r := latlon np p.1 p.2 (t - s) (bearing np p.1 p.2 q.1 q.2) h
    r.1 = q.1 ∧ (q.1 = 90 ∨ q.1 = -90 ∨ ∃ n : ℤ, r.2 = q.2 + 360 * n) := by
  intro p q r
  obtain ⟨b1, b2, -⟩ := C17_destination_bounded a l s b h
  obtain ⟨q1, q2, -⟩ := C17_destination_bounded a l t b h
  have hd := C119_track a l b h s t hh a1 a2 (by rw [abs_of_nonneg (by linarith)]; exact ht)
  rw [abs_of_nonneg (by linarith)] at hd
  have := C119_arrive p.1 p.2 q.1 q.2 h hh (lt_of_le_of_ne b1 (Ne.symm p2)) (lt_of_le_of_ne b2 p1)
    q1 q2
  simp only [p, q, hd] at this
  exact this

/-- Amsterdam to Vancouver, part of the way. -/
example : let q := latlon np 52 5 1000000 (bearing np 52 5 49 (-123)) 0
    1000000 ≤ distance np 52 5 49 (-123) 0 →
    distance np q.1 q.2 49 (-123) 0 = distance np 52 5 49 (-123) 0 - 1000000 :=
  fun h => (C119_between 52 5 49 (-123) 0 1000000 (by norm_num) (by norm_num) (by norm_num)
    (by norm_num) h).2

/-- A quarter of the equator. -/
example : (latlon np 0 0 (distance np 0 0 0 90 0) (bearing np 0 0 0 90) 0).1 = 0 :=
  (C119_arrive 0 0 0 90 0 (by norm_num) (by norm_num) (by norm_num) (by norm_num) (by norm_num)).1

end Verif.Props
