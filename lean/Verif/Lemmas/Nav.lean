import Verif.Model.Nav
import Verif.Lemmas.Geo
import Mathlib.Analysis.SpecialFunctions.Trigonometric.Bounds
import Mathlib.Analysis.Real.Pi.Bounds
import Mathlib.Tactic.Linarith

/-! Lemmas about `argmin` and about points outside a latitude/longitude box. -/

namespace Verif.Nav
open Verif Verif.Spec Verif.Geo Real

theorem argmin_lt {l : List ℝ} (h : l ≠ []) : argmin l < l.length := by
  induction l with
  | nil => exact absurd rfl h
  | cons x xs ih =>
    unfold argmin
    split_ifs with hx
    · simp
    · push Not at hx
      simpa using ih hx.1

theorem argmin_min {l : List ℝ} (h : l ≠ []) (j : ℕ) (hj : j < l.length) :
    l.getD (argmin l) 0 ≤ l.getD j 0 := by
  induction l generalizing j with
  | nil => exact absurd rfl h
  | cons x xs ih =>
    unfold argmin
    split_ifs with hx
    · rcases hx with rfl | hx
      · have : j = 0 := by simpa using hj
        subst this; exact le_refl _
      · cases j with
        | zero => exact le_refl _
        | succ j =>
          have hne : xs ≠ [] := by rintro rfl; simp at hj
          simp only [List.getD_cons_zero, List.getD_cons_succ]
          exact hx.trans (ih hne j (by simpa using hj))
    · push Not at hx
      simp only [List.getD_cons_succ]
      cases j with
      | zero => exact hx.2.le
      | succ j =>
        simp only [List.getD_cons_succ]
        exact ih hx.1 j (by simpa using hj)

theorem argmin_first {l : List ℝ} (h : l ≠ []) (j : ℕ) (hj : j < argmin l) :
    l.getD (argmin l) 0 < l.getD j 0 := by
  induction l generalizing j with
  | nil => exact absurd rfl h
  | cons x xs ih =>
    unfold argmin at hj ⊢
    split_ifs at hj ⊢ with hx
    · exact absurd hj (Nat.not_lt_zero _)
    · push Not at hx
      simp only [List.getD_cons_succ]
      cases j with
      | zero => exact hx.2
      | succ j => simpa using ih hx.1 j (by omega)

/-- Two points whose latitudes differ by `d` degrees are at least `d` degrees apart. -/
theorem angle_lat {a l c m d : ℝ} (ha : -90 ≤ a ∧ a ≤ 90) (hc : -90 ≤ c ∧ c ≤ 90) (hd : 0 ≤ d)
    (h : d ≤ |c - a|) : rad d ≤ InnerProductGeometry.angle (globe a l) (globe c m) := by
  have hp := pi_pos
  rw [angle_globe]
  have hca := cos_rad_nonneg ha.1 ha.2
  have hcc := cos_rad_nonneg hc.1 hc.2
  have h1 : cos (rad a) * cos (rad c) * cos (rad m - rad l) + sin (rad a) * sin (rad c) ≤
      cos (rad c - rad a) := by
    rw [cos_sub (rad c)]
    nlinarith [mul_nonneg hca hcc, cos_le_one (rad m - rad l)]
  have habs : |rad c - rad a| = rad |c - a| := by
    unfold rad
    rw [← sub_div, ← sub_mul, abs_div, abs_mul, abs_of_pos hp, abs_of_pos (by norm_num : (0:ℝ) < 180)]
  have hlt : |c - a| ≤ 180 := by rw [abs_le]; constructor <;> linarith [ha.1, ha.2, hc.1, hc.2]
  have hrad : ∀ x y : ℝ, x ≤ y → rad x ≤ rad y := by
    intro x y hxy; unfold rad; gcongr
  have hle : rad |c - a| ≤ π := by
    have := hrad _ _ hlt; unfold rad at this ⊢; linarith
  calc rad d ≤ rad |c - a| := hrad _ _ h
    _ = arccos (cos (rad |c - a|)) := by
        rw [arccos_cos _ hle]; unfold rad; positivity
    _ = arccos (cos (rad c - rad a)) := by rw [← habs, cos_abs]
    _ ≤ _ := arccos_le_arccos h1

/-- Two points whose longitudes differ by between `d` and `360 - d` degrees are at least
`arcsin (cos a sin d)` apart. -/
theorem angle_lon {a l c m d : ℝ} (ha : -90 ≤ a ∧ a ≤ 90) (hc : -90 ≤ c ∧ c ≤ 90) (hd : 0 ≤ d)
    (hd' : d ≤ 90) (h : d ≤ |m - l|) (h' : |m - l| ≤ 360 - d) :
    arcsin (cos (rad a) * sin (rad d)) ≤ InnerProductGeometry.angle (globe a l) (globe c m) := by
  have hp := pi_pos
  rw [angle_globe]
  have hca := cos_rad_nonneg ha.1 ha.2
  have hcc := cos_rad_nonneg hc.1 hc.2
  have hcd : 0 ≤ cos (rad d) := cos_rad_nonneg (by linarith) hd'
  have hsd : 0 ≤ sin (rad d) := by
    apply sin_nonneg_of_nonneg_of_le_pi <;> unfold rad
    · positivity
    · nlinarith
  have habs : |rad m - rad l| = rad |m - l| := by
    unfold rad
    rw [← sub_div, ← sub_mul, abs_div, abs_mul, abs_of_pos hp, abs_of_pos (by norm_num : (0:ℝ) < 180)]
  have hcos : cos (rad m - rad l) ≤ cos (rad d) := by
    rw [← cos_abs, habs]
    rcases le_total |m - l| 180 with h1 | h1
    · apply cos_le_cos_of_nonneg_of_le_pi
      · unfold rad; positivity
      · unfold rad; nlinarith
      · unfold rad; gcongr
    · rw [← cos_two_pi_sub]
      apply cos_le_cos_of_nonneg_of_le_pi
      · unfold rad; positivity
      · unfold rad; nlinarith
      · unfold rad; nlinarith
  set s := cos (rad a) * sin (rad d) with hs
  have hs0 : 0 ≤ s := mul_nonneg hca hsd
  have hs1 : s ≤ 1 := mul_le_one₀ (cos_le_one _) hsd (sin_le_one _)
  have h1 : cos (rad a) * cos (rad c) * cos (rad m - rad l) + sin (rad a) * sin (rad c) ≤
      cos (arcsin s) := by
    rw [cos_arcsin]
    have h2 : cos (rad a) * cos (rad c) * cos (rad m - rad l) + sin (rad a) * sin (rad c) ≤
        cos (rad a) * cos (rad c) * cos (rad d) + sin (rad a) * sin (rad c) := by
      have := mul_le_mul_of_nonneg_left hcos (mul_nonneg hca hcc)
      linarith
    refine h2.trans (Real.le_sqrt_of_sq_le ?_)
    have e1 := sin_sq_add_cos_sq (rad a)
    have e2 := sin_sq_add_cos_sq (rad c)
    have e3 := sin_sq_add_cos_sq (rad d)
    have e4 : 1 - s ^ 2 = (sin (rad a) ^ 2 + (cos (rad a) * cos (rad d)) ^ 2) *
        (sin (rad c) ^ 2 + cos (rad c) ^ 2) := by
      rw [e2, hs]
      linear_combination (-1 : ℝ) * e1 + (-cos (rad a) ^ 2) * e3
    rw [e4]
    nlinarith [sq_nonneg (sin (rad a) * cos (rad c) - cos (rad a) * cos (rad d) * sin (rad c))]
  exact le_trans (by rw [arccos_cos (arcsin_nonneg.2 hs0) (by linarith [arcsin_le_pi_div_two s])])
    (arccos_le_arccos h1)

end Verif.Nav
