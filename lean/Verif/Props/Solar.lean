import Verif.Lemmas.Geo
import Verif.Spec.Solar
import Mathlib.Analysis.Real.Pi.Bounds

/-!
# C18: solar zenith angle
-/

namespace Verif.Props
open Verif.Geo Verif.Spec Real

/-- Bound of one harmonic. -/
theorem harmonic_bound (a c r g : ℝ) (hr : 0 ≤ r) (h : a ^ 2 + c ^ 2 ≤ r ^ 2) :
    |a * cos g + c * sin g| ≤ r := by
  apply abs_le_of_sq_le_sq _ hr
  have := sin_sq_add_cos_sq g
  nlinarith [sq_nonneg (a * sin g - c * cos g)]

theorem declination_bound (t : Stamp ℝ) : |declination np t| ≤ 0.42287 := by
  simp only [declination]
  generalize dayAngle np t = g
  simp only [np]
  have h1 := harmonic_bound (-0.399912) 0.070257 0.40605 g (by norm_num) (by norm_num)
  have h2 := harmonic_bound (-0.006758) 0.000907 0.00682 (2.0 * g) (by norm_num) (by norm_num)
  have h3 := harmonic_bound (-0.002697) 0.00148 0.00308 (3.0 * g) (by norm_num) (by norm_num)
  rw [abs_le] at *
  constructor <;> linarith [h1.1, h1.2, h2.1, h2.2, h3.1, h3.2]

/-- **C18.** The zenith angle is the angle, in degrees, between the vertical at the given
place and the vertical at the subsolar point given by Spencer's series for the declination and the
equation of time, whose latitude is within 24.3° of the equator; so it lies in `[0, 180]`, is 360-periodic in
longitude, one hour equals 15° of longitude, a full day changes nothing, the clamp before
`arccos` is never active, and the sun is never nearer the zenith than `|lat| - 24.3`. -/
theorem C18_solar_zenith :
    (∀ yday, |sunLat yday| ≤ 24.3 ∧ ∀ lat lon hour minute second,
      solarZenith np lat lon ⟨yday, hour, minute, second⟩ = 180 / π *
        InnerProductGeometry.angle (globe lat lon)
          (globe (sunLat yday) (sunLon yday (hour + minute / 60 + second / 3600)))) ∧
    (∀ lat lon t, -1 ≤ cosZenith np lat lon t ∧ cosZenith np lat lon t ≤ 1) ∧
    (∀ lat lon t, 0 ≤ solarZenith np lat lon t ∧ solarZenith np lat lon t ≤ 180) ∧
    (∀ lat lon t, solarZenith np lat (lon + 360) t = solarZenith np lat lon t) ∧
    (∀ lat lon yday hour minute second,
      solarZenith np lat (lon + 15) ⟨yday, hour, minute, second⟩ =
        solarZenith np lat lon ⟨yday, hour + 1, minute, second⟩) ∧
    (∀ lat lon yday hour minute second,
      solarZenith np lat lon ⟨yday, hour + 24, minute, second⟩ =
        solarZenith np lat lon ⟨yday, hour, minute, second⟩) ∧
    (∀ lat lon t, -90 ≤ lat → lat ≤ 90 → |lat| - 24.3 ≤ solarZenith np lat lon t) := by
  have hp := pi_pos
  -- `cosZenith` is the inner product with the subsolar vertical
  have key : ∀ lat lon (t : Stamp ℝ), cosZenith np lat lon t =
      cos (rad lat) * cos (rad (declination np t * 180 / π)) *
        cos (rad (180 - eot np t / 4 - 15 * t.hourUtc) - rad lon) +
      sin (rad lat) * sin (rad (declination np t * 180 / π)) := by
    intro lat lon t
    have e1 : rad (declination np t * 180 / π) = declination np t := by
      unfold rad; field_simp
    have e2 : cos (rad (180 - eot np t / 4 - 15 * t.hourUtc) - rad lon) =
        cos (rad ((t.hourUtc * 60 + (eot np t + 4 * lon)) / 4 - 180)) := by
      rw [← cos_neg]; congr 1; unfold rad; ring
    rw [e1, e2]
    simp only [cosZenith, mul_deg2rad]
    simp only [np]
    norm_num
    ring
  have hb : ∀ lat lon t, -1 ≤ cosZenith np lat lon t ∧ cosZenith np lat lon t ≤ 1 := by
    intro lat lon t; rw [key]; exact inner_bounds _ _ _ _
  have hz : ∀ lat lon t, solarZenith np lat lon t = 180 / π * arccos (cosZenith np lat lon t) := by
    intro lat lon t
    obtain ⟨b1, b2⟩ := hb lat lon t
    have e1 : ∀ x : ℝ, -1 ≤ x → x ≤ 1 → clipR x (-1.0) 1.0 = x := by
      intro x h1 h2
      unfold clipR
      rw [max_eq_left (by norm_num; linarith), min_eq_left (by norm_num; linarith)]
    unfold solarZenith
    have : np.clip (cosZenith np lat lon t) (-1.0) 1.0 = cosZenith np lat lon t := e1 _ b1 b2
    rw [this]
    simp only [np, rad2deg]
    rw [mul_comm]; norm_num
  have hdecl : ∀ t, |declination np t * 180 / π| ≤ 24.3 := by
    intro t
    have h1 := declination_bound t
    have h2 := pi_gt_d2
    rw [abs_div, abs_mul, abs_of_pos hp, div_le_iff₀ hp]
    norm_num at h2 ⊢
    nlinarith
  refine ⟨?_, hb, ?_, ?_, ?_, ?_, ?_⟩
  · intro yday
    have hg : dayAngle np ⟨yday, 0, 0, 0⟩ = yearAngle yday := by
      simp only [dayAngle, yearAngle]; simp only [np]; norm_num
    have hd : declination np ⟨yday, 0, 0, 0⟩ * 180 / π = sunLat yday := by
      simp only [declination, sunLat, hg]
      generalize yearAngle yday = g
      simp only [np]; norm_num; ring
    have he : eot np ⟨yday, 0, 0, 0⟩ = equationOfTime yday := by
      simp only [eot, equationOfTime, hg]
      generalize yearAngle yday = g
      simp only [np]; norm_num
    have hl : ∀ u, sunLon yday u = 180 - eot np ⟨yday, 0, 0, 0⟩ / 4 - 15 * u := by
      intro u; rw [he]; unfold sunLon; ring
    rw [← hd]
    refine ⟨hdecl _, ?_⟩
    intro lat lon hour minute second
    rw [hz, key, angle_globe, hl]
    have e : Stamp.hourUtc (⟨yday, hour, minute, second⟩ : Stamp ℝ) =
        hour + minute / 60 + second / 3600 := by
      simp only [Stamp.hourUtc]; norm_num
    rw [e]
    rfl
  · intro lat lon t
    rw [hz]
    have h1 := arccos_nonneg (cosZenith np lat lon t)
    have h2 := arccos_le_pi (cosZenith np lat lon t)
    refine ⟨by positivity, ?_⟩
    rw [div_mul_eq_mul_div, div_le_iff₀ hp]
    linarith
  · intro lat lon t
    rw [hz, hz, key, key]
    have e : rad (180 - eot np t / 4 - 15 * t.hourUtc) - rad (lon + 360) =
        rad (180 - eot np t / 4 - 15 * t.hourUtc) - rad lon - 2 * π := by unfold rad; ring
    rw [e, cos_sub_two_pi]
  · intro lat lon yday hour minute second
    rw [hz, hz, key, key]
    have e : rad (180 - eot np ⟨yday, hour, minute, second⟩ / 4 -
          15 * Stamp.hourUtc (⟨yday, hour, minute, second⟩ : Stamp ℝ)) - rad (lon + 15) =
        rad (180 - eot np ⟨yday, hour + 1, minute, second⟩ / 4 -
          15 * Stamp.hourUtc (⟨yday, hour + 1, minute, second⟩ : Stamp ℝ)) - rad lon := by
      have : eot np ⟨yday, hour + 1, minute, second⟩ = eot np ⟨yday, hour, minute, second⟩ := rfl
      rw [this]
      simp only [rad, Stamp.hourUtc, show (60.0 : ℝ) = 60 by norm_num, show (3600.0 : ℝ) = 3600 by norm_num]; ring
    rw [e]
    rfl
  · intro lat lon yday hour minute second
    rw [hz, hz, key, key]
    have e : rad (180 - eot np ⟨yday, hour + 24, minute, second⟩ / 4 -
          15 * Stamp.hourUtc (⟨yday, hour + 24, minute, second⟩ : Stamp ℝ)) - rad lon =
        rad (180 - eot np ⟨yday, hour, minute, second⟩ / 4 -
          15 * Stamp.hourUtc (⟨yday, hour, minute, second⟩ : Stamp ℝ)) - rad lon - 2 * π := by
      have : eot np ⟨yday, hour + 24, minute, second⟩ = eot np ⟨yday, hour, minute, second⟩ := rfl
      rw [this]
      simp only [rad, Stamp.hourUtc, show (60.0 : ℝ) = 60 by norm_num, show (3600.0 : ℝ) = 3600 by norm_num]; ring
    rw [e, cos_sub_two_pi]
    rfl
  · intro lat lon t h1 h2
    set D := declination np t * 180 / π with hD
    have hDb := hdecl t
    rw [← hD] at hDb
    have hDb' := abs_le.1 hDb
    have c1 := cos_rad_nonneg h1 h2
    have c2 := cos_rad_nonneg (lat := D) (by linarith) (by linarith)
    have hle : cosZenith np lat lon t ≤ cos (rad (|lat - D|)) := by
      have e : cos (rad (|lat - D|)) = cos (rad lat - rad D) := by
        rcases abs_cases (lat - D) with ⟨h, _⟩ | ⟨h, _⟩ <;> rw [h]
        · congr 1; unfold rad; ring
        · rw [← cos_neg]; congr 1; unfold rad; ring
      rw [key, ← hD, e, cos_sub (rad lat) (rad D)]
      have := cos_le_one (rad (180 - eot np t / 4 - 15 * t.hourUtc) - rad lon)
      have := mul_nonneg c1 c2
      nlinarith
    have hr0 : 0 ≤ rad (|lat - D|) := by unfold rad; positivity
    have hlt : |lat - D| ≤ 180 := by rw [abs_le]; constructor <;> linarith
    have hr1 : rad (|lat - D|) ≤ π := by
      unfold rad; rw [div_le_iff₀ (by norm_num)]; nlinarith
    have := antitone_arccos hle
    rw [arccos_cos hr0 hr1] at this
    have h3 : |lat - D| ≤ solarZenith np lat lon t := by
      rw [hz, div_mul_eq_mul_div, le_div_iff₀ hp]
      unfold rad at this
      linarith
    have h4 : |lat| - |D| ≤ |lat - D| := abs_sub_abs_le_abs_sub lat D
    linarith

/-- At 80°N the sun is always at least 55° from the zenith. -/
example (lon : ℝ) (t : Stamp ℝ) : 55 ≤ solarZenith np 80 lon t := by
  have := C18_solar_zenith.2.2.2.2.2.2 80 lon t (by norm_num) (by norm_num)
  rw [abs_of_pos (by norm_num)] at this
  norm_num at this
  linarith

/-- On 1 January the sun is in the zenith 23° south of the equator. -/
example : -23.1 < sunLat 1 ∧ sunLat 1 < -23 := by
  have h1 := pi_gt_d4
  have h2 := pi_lt_d4
  have hg : yearAngle 1 = 0 := by unfold yearAngle; ring
  simp only [sunLat, hg, mul_zero, cos_zero, sin_zero]
  constructor
  · rw [div_mul_eq_mul_div, lt_div_iff₀ pi_pos]
    norm_num at h1 ⊢
    linarith
  · rw [div_mul_eq_mul_div, div_lt_iff₀ pi_pos]
    norm_num at h2 ⊢
    linarith

end Verif.Props
