import Verif.Lemmas.FloatDistance

/-!
# C121: accuracy of the distance for nearly antipodal points
-/

namespace Verif.Props
open Verif Verif.Geo Real

variable {f : Format} (M : Machine f)

/-- The distance to points short of the antipode by `gap` metres. The error grows as the inverse of the
gap. The root in the code is taken of a number that is not negative, and the inverse sine of a number in
[-1, 1], so that neither is NaN. -/
theorem C121_distance_far (hw : f.Wide) {lat1 lon1 lat2 lon2 h gap : ℝ} (h1 : |lat1| ≤ 89.999)
    (h2 : |lat2| ≤ 89.999) (l1 : |lon1| ≤ 360) (l2 : |lon2| ≤ 360) (hl : 0 ≤ h) (hh : h ≤ 100000)
    (hg : 25 ≤ gap) (hgu : 3e9 * √f.u ≤ gap)
    (hd : distance np lat1 lon1 lat2 lon2 0 + gap ≤ π * 6371000) :
    0 ≤ (GeoFar.hav (flt M) ⟨lat1⟩ ⟨lon1⟩ ⟨lat2⟩ ⟨lon2⟩).val ∧
    |((flt M).sqrt (GeoFar.hav (flt M) ⟨lat1⟩ ⟨lon1⟩ ⟨lat2⟩ ⟨lon2⟩)).val| ≤ 1 ∧
    |(distance (flt M) ⟨lat1⟩ ⟨lon1⟩ ⟨lat2⟩ ⟨lon2⟩ ⟨h⟩).val - distance np lat1 lon1 lat2 lon2 h| ≤
      (7.42e9 / gap + 36) * (6371000 + h) * f.u := by
  have hu := f.u_pos
  have hpi := Real.pi_gt_d6
  have hpi' := Real.pi_lt_d6
  have n1 : |lat1| ≤ 90 := h1.trans (by norm_num)
  have n2 : |lat2| ≤ 90 := h2.trans (by norm_num)
  have c1 := GeoFar.cos_lat_nonneg n1
  have c2 := GeoFar.cos_lat_nonneg n2
  have hn : 0 ≤ GeoFar.hav np lat1 lon1 lat2 lon2 := by
    rw [GeoFar.hav_np]; positivity
  have e' : distance np lat1 lon1 lat2 lon2 0 = 2 * arcsin (√(GeoFar.hav np lat1 lon1 lat2 lon2)) * 6371000 := by
    rw [GeoFar.distance_hav]
    unfold rEarth
    rw [show (2.0 : ℝ) = 2 by norm_num, show (6371000.0 : ℝ) = 6371000 by norm_num, add_zero]
    rfl
  rw [e'] at hd
  have as0 : 0 ≤ arcsin (√(GeoFar.hav np lat1 lon1 lat2 lon2)) := arcsin_nonneg.2 (sqrt_nonneg _)
  have hjor := Real.one_sub_mul_le_cos as0 (arcsin_le_pi_div_two _)
  have hP : 0 < π * 6371000 := by positivity
  -- the cosine of half the angle
  have hk : gap / (π * 6371000) ≤ Real.cos (arcsin (√(GeoFar.hav np lat1 lon1 lat2 lon2))) := by
    refine le_trans ?_ hjor
    rw [div_le_iff₀ hP]
    have : (1 - 2 / π * arcsin (√(GeoFar.hav np lat1 lon1 lat2 lon2))) * (π * 6371000) =
        π * 6371000 - 2 * arcsin (√(GeoFar.hav np lat1 lon1 lat2 lon2)) * 6371000 := by
      field_simp
    rw [this]
    linarith
  rw [cos_arcsin, Real.sq_sqrt hn] at hk
  have k0 : 0 < gap / (π * 6371000) := by positivity
  have hS : (gap / (π * 6371000)) ^ 2 ≤ 1 - GeoFar.hav np lat1 lon1 lat2 lon2 := by
    have p : 0 < √(1 - GeoFar.hav np lat1 lon1 lat2 lon2) := lt_of_lt_of_le k0 hk
    have := Real.sq_sqrt (Real.sqrt_pos.1 p).le
    rw [← this]
    exact pow_le_pow_left₀ k0.le hk 2
  have k1 : gap / (π * 6371000) ≤ 1 := by
    rw [div_le_one hP]
    linarith
  have k6 : 1e-6 ≤ gap / (π * 6371000) := by
    rw [le_div_iff₀ hP]
    nlinarith
  have ku : 20000 * f.u ≤ (gap / (π * 6371000)) ^ 2 := by
    rw [div_pow, le_div_iff₀ (by positivity)]
    have s := Real.sq_sqrt hu.le
    have s0 := Real.sqrt_nonneg f.u
    have g1 : (3e9 * √f.u) ^ 2 ≤ gap ^ 2 := pow_le_pow_left₀ (by positivity) hgu 2
    have g2 : (π * 6371000) ^ 2 ≤ (20015090 : ℝ) ^ 2 := pow_le_pow_left₀ hP.le (by nlinarith) 2
    rw [mul_pow, s] at g1
    nlinarith
  obtain ⟨r1, r2⟩ := GeoFar.fl_distance M hw n1 n2 l1 l2 hl hh k6 k1 ku hS
  refine ⟨GeoFar.fl_hav_nonneg M hw h1 h2 l1 l2, r1, r2.trans ?_⟩
  refine mul_le_mul_of_nonneg_right (mul_le_mul_of_nonneg_right ?_ (by linarith)) hu.le
  have g0 : 0 < gap := by linarith
  have : 370 / (gap / (π * 6371000)) = 370 * (π * 6371000) / gap := by field_simp
  rw [this]
  have : 370 * (π * 6371000) / gap ≤ 7.42e9 / gap := by
    gcongr
    nlinarith
  linarith

/-- In double precision: to 8 cm, up to 20 015 km (the antipode is at 20 015.087 km), and to a tenth of a
millimetre up to 19 900 km. -/
theorem C121_distance_far_float64 (M : Machine .binary64) {lat1 lon1 lat2 lon2 h : ℝ}
    (h1 : |lat1| ≤ 89.999) (h2 : |lat2| ≤ 89.999) (l1 : |lon1| ≤ 360) (l2 : |lon2| ≤ 360) (hl : 0 ≤ h)
    (hh : h ≤ 100000) :
    (distance np lat1 lon1 lat2 lon2 0 ≤ 20015000 →
      |(distance (flt M) ⟨lat1⟩ ⟨lon1⟩ ⟨lat2⟩ ⟨lon2⟩ ⟨h⟩).val - distance np lat1 lon1 lat2 lon2 h| ≤
        0.08) ∧
    (distance np lat1 lon1 lat2 lon2 0 ≤ 19900000 →
      |(distance (flt M) ⟨lat1⟩ ⟨lon1⟩ ⟨lat2⟩ ⟨lon2⟩ ⟨h⟩).val - distance np lat1 lon1 lat2 lon2 h| ≤
        0.0001) := by
  have hpi := Real.pi_gt_d6
  have hu : Format.binary64.u = (2 : ℝ) ^ (-53 : ℤ) := rfl
  have hs : √Format.binary64.u ≤ 1.06e-8 := by
    rw [hu]
    exact Real.sqrt_le_iff.2 ⟨by norm_num, by norm_num⟩
  have key : ∀ gap e : ℝ, 40 ≤ gap → (7.42e9 / gap + 36) * 6471000 * (2 : ℝ) ^ (-53 : ℤ) ≤ e →
      distance np lat1 lon1 lat2 lon2 0 + gap ≤ π * 6371000 →
      |(distance (flt M) ⟨lat1⟩ ⟨lon1⟩ ⟨lat2⟩ ⟨lon2⟩ ⟨h⟩).val - distance np lat1 lon1 lat2 lon2 h| ≤ e := by
    intro gap e hg he hd
    refine (C121_distance_far M Format.binary64_wide h1 h2 l1 l2 hl hh (by linarith) (by linarith)
      hd).2.2.trans (le_trans ?_ he)
    rw [hu]
    refine mul_le_mul_of_nonneg_right (mul_le_mul_of_nonneg_left (by linarith) ?_) (by positivity)
    positivity
  exact ⟨fun hd => key 82 _ (by norm_num) (by norm_num) (by nlinarith),
    fun hd => key 115000 _ (by norm_num) (by norm_num) (by nlinarith)⟩

/-- Along the equator from 0° to 178.9° E, 122 km short of the antipode. -/
example (M : Machine .binary64) :
    |(distance (flt M) ⟨0⟩ ⟨0⟩ ⟨0⟩ ⟨178.9⟩ ⟨10000⟩).val - distance np 0 0 0 178.9 10000| ≤ 0.0001 := by
  refine (C121_distance_far_float64 M (by norm_num) (by norm_num) (by norm_num)
    (by rw [abs_of_pos (by norm_num)]; norm_num) (by norm_num) (by norm_num)).2 ?_
  rw [GeoFar.distance_hav]
  have e : GeoFar.hav np 0 0 0 178.9 = Real.sin (178.9 * (π / 180) / 2) ^ 2 := by
    rw [GeoFar.hav_np]
    simp
  have hpi := Real.pi_gt_d6
  have hpi' := Real.pi_lt_d6
  have s0 : 0 ≤ Real.sin (178.9 * (π / 180) / 2) :=
    Real.sin_nonneg_of_nonneg_of_le_pi (by positivity) (by linarith)
  show (2.0 : ℝ) * arcsin (√(GeoFar.hav np 0 0 0 178.9)) * (6371000.0 + 0) ≤ _
  rw [e, Real.sqrt_sq s0, Real.arcsin_sin (by linarith) (by linarith)]
  norm_num
  nlinarith

end Verif.Props
