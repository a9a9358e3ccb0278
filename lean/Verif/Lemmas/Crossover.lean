import Verif.Lemmas.Airspeed
import Verif.Lemmas.PressureAltitude

namespace Verif.Aero
open Verif.Spec Verif.Comp

/-- Ratio of impact pressures encoded by `crossover_alt`. -/
noncomputable def crossDelta (v m : ℝ) : ℝ := F (0.2 * (v / 340.293988) ^ 2) / F (0.2 * m ^ 2)

theorem crossover_eq {v m : ℝ} (dT : ℝ) (hm : 1e-4 ≤ m) :
    crossoverAlt np v m dT = (288.15 + dT) / 0.0065 * (1 - crossDelta v m ^ aExp) := by
  simp only [crossoverAlt, crossDelta, F]
  simp only [np, T0, beta, R, g0, a0]
  rw [max_eq_left hm]
  have e : (-1.0 * 287.05287 * -0.0065 / 9.80665 : ℝ) = aExp := by unfold aExp; norm_num
  rw [e]
  have e2 : (0.2 * (v / 340.293988) ^ 2 + 1.0 : ℝ) = 1 + 0.2 * (v / 340.293988) ^ 2 := by
    norm_num; ring
  have e3 : (0.2 * m ^ 2 + 1.0 : ℝ) = 1 + 0.2 * m ^ 2 := by norm_num; ring
  have e4 : (1.0 : ℝ) = 1 := by norm_num
  rw [e2, e3, e4]
  ring

theorem crossDelta_pos {v m : ℝ} (hv : 0 < v) (hm : 0 < m) : 0 < crossDelta v m := by
  unfold crossDelta
  exact div_pos (F_pos (by positivity)) (F_pos (by positivity))

theorem aExp_pos : 0 < aExp := by unfold aExp; norm_num

/-- Closeness of impact pressures gives closeness of Mach numbers. -/
theorem F_close {M m : ℝ} (hM0 : 0 ≤ M) (hm0 : 0 < m)
    (up : (1 - 3.22e-4) * F (0.2 * M ^ 2) ≤ F (0.2 * m ^ 2))
    (lo : (1 - 1e-6) * F (0.2 * m ^ 2) ≤ F (0.2 * M ^ 2)) : |M - m| ≤ 0.0002 * m := by
  have f1 : 0 ≤ F (0.2 * M ^ 2) := F_nonneg (by positivity)
  have f2 : 0 ≤ F (0.2 * m ^ 2) := F_nonneg (by positivity)
  have um : M ^ 2 ≤ 1.000323 * m ^ 2 := by
    have t1 : F (0.2 * M ^ 2) ≤ 1.000323 * F (0.2 * m ^ 2) := by linarith
    have t2 := F_scale_ge (l := 1.000323) (u := 0.2 * m ^ 2) (by norm_num) (by positivity)
    have t3 := (F_le_iff (by positivity) (by positivity)).1 (t1.trans t2)
    linarith
  have lm : m ^ 2 ≤ 1.0000011 * M ^ 2 := by
    have t1 : F (0.2 * m ^ 2) ≤ 1.0000011 * F (0.2 * M ^ 2) := by linarith
    have t2 := F_scale_ge (l := 1.0000011) (u := 0.2 * M ^ 2) (by norm_num) (by positivity)
    have t3 := (F_le_iff (by positivity) (by positivity)).1 (t1.trans t2)
    linarith
  have g1 : M ≤ 1.0002 * m := by
    refine le_of_sq_le_sq ?_ (by positivity)
    rw [mul_pow]
    refine um.trans ?_
    gcongr
    norm_num
  have g2 : m ≤ 1.0001 * M := by
    refine le_of_sq_le_sq ?_ (by positivity)
    rw [mul_pow]
    refine lm.trans ?_
    gcongr
    norm_num
  rw [abs_le]
  constructor <;> linarith

end Verif.Aero
