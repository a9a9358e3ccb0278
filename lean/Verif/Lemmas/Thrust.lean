import Verif.Model.Thrust
import Verif.Lemmas.Airspeed
import Mathlib.Analysis.SpecialFunctions.Pow.Continuity
import Mathlib.Topology.Algebra.Order.Field

namespace Verif.Thrust
open Verif.Aero Real

/-- The take-off polynomial has no real root in the Mach number. -/
theorem ratio_pos {A c1 Z c2 X M : ℝ} (hc2 : 0 < c2) (hX : 0 < X)
    (hc : c1 ^ 2 ≤ 2 * c2) (hZ : Z ^ 2 < 2 * A * X) :
    0 < A - c1 * Z * M + c2 * X * M ^ 2 := by
  have h1 : (c1 * Z) ^ 2 < 4 * A * (c2 * X) := by
    rw [mul_pow]
    have : c1 ^ 2 * Z ^ 2 ≤ 2 * c2 * Z ^ 2 := mul_le_mul_of_nonneg_right hc (sq_nonneg Z)
    have : 2 * c2 * Z ^ 2 < 2 * c2 * (2 * A * X) := by
      apply mul_lt_mul_of_pos_left hZ; positivity
    nlinarith
  have hp : 0 < c2 * X := by positivity
  have h2 : 0 < 4 * (c2 * X) * (A - c1 * Z * M + c2 * X * M ^ 2) := by
    nlinarith [sq_nonneg (2 * (c2 * X) * M - c1 * Z)]
  exact pos_of_mul_pos_right h2 (by positivity)

theorem coeff_bound {s : ℝ} (hs : 0 ≤ s) :
    0.377 ^ 2 * (1 + s ^ 2) ^ 2 ≤
      2 * (0.23 + 0.19 * s) * ((1 + 0.82 * s ^ 2) * (0.0606 * s ^ 2 + 0.6337)) := by
  have e : 2 * (0.23 + 0.19 * s) * ((1 + 0.82 * s ^ 2) * (0.0606 * s ^ 2 + 0.6337)) -
      0.377 ^ 2 * (1 + s ^ 2) ^ 2 =
      0.149373 + 0.240806 * s + -0.01735036 * s ^ 2 + 0.22048892 * s ^ 3
        - 0.11927068 * s ^ 4 + 0.018882960 * s ^ 5 := by ring
  have h3 : 0 ≤ s ^ 3 * (0.0189 * (s - 3.16) ^ 2) := by positivity
  have h1 : 0 ≤ s * (0.1 - 0.1 * s) ^ 2 := by positivity
  have p3 : 0 ≤ s ^ 3 := by positivity
  have p4 : 0 ≤ s ^ 4 := by positivity
  have p5 : 0 ≤ s ^ 5 := by positivity
  have q : 0 ≤ s ^ 3 * (0.0001 * (s - 20) ^ 2) := by positivity
  have q2 : 0 ≤ s ^ 3 * (s - 3.16) ^ 2 := by positivity
  nlinarith [mul_nonneg p3 (sq_nonneg (s - 3.16))]

theorem poly_bound {x : ℝ} (h0 : 0 < x) (h1 : x ≤ 1.1) :
    let A := -0.4327 * x ^ 2 + 1.3855 * x + 0.0472
    let Z := 0.9106 * x ^ 3 - 1.7736 * x ^ 2 + 1.8697 * x
    let X := 0.1377 * x ^ 3 - 0.4374 * x ^ 2 + 1.3003 * x
    0 < A ∧ 0 < X ∧ Z ^ 2 < 2 * A * X := by
  intro A Z X
  have hA : 0 < A := by simp only [A]; nlinarith
  have hX' : 0 < 0.1377 * x ^ 2 - 0.4374 * x + 1.3003 := by nlinarith
  have hX : 0 < X := by
    have : X = x * (0.1377 * x ^ 2 - 0.4374 * x + 1.3003) := by simp only [X]; ring
    rw [this]; positivity
  refine ⟨hA, hX, ?_⟩
  have e : 2 * A * X - Z ^ 2 = x * (2 * A * (0.1377 * x ^ 2 - 0.4374 * x + 1.3003) -
      x * (0.9106 * x ^ 2 - 1.7736 * x + 1.8697) ^ 2) := by simp only [A, X, Z]; ring
  have hz1 : 0.9106 * x ^ 2 - 1.7736 * x + 1.8697 ≤ 1.8697 - 0.75 * x := by nlinarith
  have hz0 : 0 ≤ 0.9106 * x ^ 2 - 1.7736 * x + 1.8697 := by nlinarith [sq_nonneg (x - 0.97)]
  have hz2 : (0.9106 * x ^ 2 - 1.7736 * x + 1.8697) ^ 2 ≤ (1.8697 - 0.75 * x) ^ 2 :=
    pow_le_pow_left₀ hz0 hz1 2
  have hx1 : 1.3003 - 0.4374 * x ≤ 0.1377 * x ^ 2 - 0.4374 * x + 1.3003 := by nlinarith
  have hmain : 0 < 2 * A * (1.3003 - 0.4374 * x) - x * (1.8697 - 0.75 * x) ^ 2 := by
    simp only [A]
    nlinarith [sq_nonneg (x - 0.5), mul_pos h0 h0, sq_nonneg (x - 1), mul_nonneg h0.le (sq_nonneg (x - 0.6))]
  have : 0 < 2 * A * (0.1377 * x ^ 2 - 0.4374 * x + 1.3003) -
      x * (0.9106 * x ^ 2 - 1.7736 * x + 1.8697) ^ 2 := by nlinarith
  nlinarith

end Verif.Thrust

namespace Verif.Thrust
open Verif.Aero Real

theorem continuous_temperature (dT : ℝ) : Continuous fun h => temperature np h dT := by
  simp only [temperature, atmos, np]
  fun_prop

theorem continuous_density (dT : ℝ) : Continuous fun h => density np h dT := by
  have h1 := continuous_temperature dT
  simp only [density, temperature, atmos, np] at h1 ⊢
  refine (continuous_const.mul ((h1.div_const _).rpow_const fun _ => Or.inr (by norm_num))).mul ?_
  fun_prop

theorem continuous_pressure (dT : ℝ) : Continuous fun h => pressure np h dT := by
  simp only [pressure_eq]
  exact ((continuous_density dT).mul continuous_const).mul (continuous_temperature dT)

theorem continuous_tas2cas (v dT : ℝ) : Continuous fun h => tas2cas np v h dT := by
  have hp : Continuous fun h => pressure np h dT := continuous_pressure dT
  have hr : Continuous fun h => density np h dT := continuous_density dT
  have hp0 : ∀ h, (7.0 : ℝ) * pressure np h dT ≠ 0 :=
    fun h => mul_ne_zero (by norm_num) (pressure_pos h dT).ne'
  have e : (fun h => tas2cas np v h dT) = fun h => sqrt (7.0 * 101325.0 / 1.225 *
      (((pressure np h dT * ((1.0 + density np h dT * v * v / (7.0 * pressure np h dT)) ^ (3.5 : ℝ)
        - 1.0)) / 101325.0 + 1.0) ^ (2.0 / 7.0 : ℝ) - 1.0)) := rfl
  rw [e]
  refine Real.continuous_sqrt.comp (continuous_const.mul (Continuous.sub
    (Continuous.rpow_const ?_ fun _ => Or.inr (by norm_num)) continuous_const))
  refine Continuous.add (Continuous.div_const (hp.mul (Continuous.sub
    (Continuous.rpow_const ?_ fun _ => Or.inr (by norm_num)) continuous_const)) _) continuous_const
  exact continuous_const.add (((hr.mul continuous_const).mul continuous_const).div
    (continuous_const.mul hp) hp0)

end Verif.Thrust

namespace Verif.Thrust
open Verif.Aero Real

/-- Ratio of calibrated airspeed to its cruise reference. -/
noncomputable def vratio (e : Params ℝ) (tas alt dT : ℝ) : ℝ :=
  tas2cas np (max 10 tas * 0.514444) (alt * 0.3048) dT /
    mach2cas np e.cruiseMach (e.cruiseAlt * 0.3048) dT

/-- Pressure ratio to the cruise altitude. -/
noncomputable def pratio (e : Params ℝ) (alt dT : ℝ) : ℝ :=
  pressure np (alt * 0.3048) dT / pressure np (e.cruiseAlt * 0.3048) dT

/-- Mach ratio. -/
noncomputable def mratio (e : Params ℝ) (tas alt dT : ℝ) : ℝ :=
  tas2mach np (max 10 tas * 0.514444) (alt * 0.3048) dT / e.cruiseMach

noncomputable def seg3 (e : Params ℝ) (tas alt dT : ℝ) : ℝ :=
  dfunc (mratio e tas alt dT) * log (pratio e alt dT) + mratio e tas alt dT ^ (-0.11 : ℝ)

noncomputable def seg2 (e : Params ℝ) (tas alt roc dT : ℝ) : ℝ :=
  vratio e tas alt dT ^ (-0.1 : ℝ) *
    pratio e alt dT ^ (-0.355 * vratio e tas alt dT + nfunc |roc|)

noncomputable def seg1 (e : Params ℝ) (tas alt roc dT : ℝ) : ℝ :=
  mfunc (vratio e tas alt dT) |roc| * pratio e alt dT +
    (vratio e tas alt dT ^ (-0.1 : ℝ) *
      pratio e 10000 dT ^ (-0.355 * vratio e tas alt dT + nfunc |roc|) -
      mfunc (vratio e tas alt dT) |roc| * pratio e 10000 dT)

open Classical in
theorem climb_eq (e : Params ℝ) (hF : e.cruiseThrust * e.number ≠ 0) (tas alt roc dT : ℝ) :
    climb np e tas alt roc dT =
      (if 30000 < alt then seg3 e tas alt dT
        else if 10000 < alt then seg2 e tas alt roc dT else seg1 e tas alt roc dT) *
      (e.cruiseThrust * e.number) := by
  simp only [climb, np, show (30000.0 : ℝ) = 30000 by norm_num,
    show (10000.0 : ℝ) = 10000 by norm_num, show (10.0 : ℝ) = 10 by norm_num, gt_iff_lt]
  congr 1
  refine if_congr Iff.rfl rfl (if_congr Iff.rfl rfl ?_)
  unfold seg1
  congr 2
  rw [mul_assoc, mul_div_cancel_left₀ _ hF]
  rfl

theorem tas2cas_pos {v : ℝ} (hv : 0 < v) (h dT : ℝ) : 0 < tas2cas np v h dT := by
  obtain ⟨n1, e1⟩ := tas2cas_spec v h dT
  rcases n1.eq_or_lt with h0 | h0
  · exfalso
    rw [← h0, impact_zero] at e1
    have := impact_strictMono (pressure_pos h dT) (density_pos h dT) le_rfl hv
    rw [impact_zero] at this
    linarith
  · exact h0

theorem vratio_pos (e : Params ℝ) (hM : 0 < e.cruiseMach) (tas alt dT : ℝ) :
    0 < vratio e tas alt dT := by
  have h1 : 0 < max 10 tas * 0.514444 := by
    have := le_max_left 10 tas
    positivity
  have h2 : 0 < mach2cas np e.cruiseMach (e.cruiseAlt * 0.3048) dT := by
    refine tas2cas_pos ?_ _ _
    exact mul_pos hM (vsound_pos _ _)
  exact div_pos (tas2cas_pos h1 _ _) h2

theorem pratio_pos (e : Params ℝ) (alt dT : ℝ) : 0 < pratio e alt dT :=
  div_pos (pressure_pos _ _) (pressure_pos _ _)

theorem continuous_pratio (e : Params ℝ) (dT : ℝ) : Continuous fun alt => pratio e alt dT := by
  unfold pratio
  exact ((continuous_pressure dT).comp (continuous_id.mul continuous_const)).div_const _

theorem continuous_vratio (e : Params ℝ) (tas dT : ℝ) :
    Continuous fun alt => vratio e tas alt dT := by
  unfold vratio
  exact ((continuous_tas2cas _ dT).comp (continuous_id.mul continuous_const)).div_const _

theorem continuous_seg2 (e : Params ℝ) (hM : 0 < e.cruiseMach) (tas roc dT : ℝ) :
    Continuous fun alt => seg2 e tas alt roc dT := by
  unfold seg2
  have hv := continuous_vratio e tas dT
  have hp := continuous_pratio e dT
  refine (hv.rpow_const fun a => Or.inl (vratio_pos e hM tas a dT).ne').mul
    (hp.rpow ?_ fun a => Or.inl (pratio_pos e a dT).ne')
  exact (continuous_const.mul hv).add continuous_const

theorem continuous_seg1 (e : Params ℝ) (hM : 0 < e.cruiseMach) (tas roc dT : ℝ) :
    Continuous fun alt => seg1 e tas alt roc dT := by
  unfold seg1
  have hv := continuous_vratio e tas dT
  have hp := continuous_pratio e dT
  have hm : Continuous fun alt => mfunc (vratio e tas alt dT) |roc| := by
    unfold mfunc
    exact (((continuous_const.mul hv).sub continuous_const).add continuous_const).add
      continuous_const
  refine (hm.mul hp).add (Continuous.sub (Continuous.mul
    (hv.rpow_const fun a => Or.inl (vratio_pos e hM tas a dT).ne')
    (Continuous.rpow continuous_const ?_ fun a => Or.inl (pratio_pos e 10000 dT).ne'))
    (hm.mul continuous_const))
  exact (continuous_const.mul hv).add continuous_const

theorem seg1_eq_seg2 (e : Params ℝ) (tas roc dT : ℝ) :
    seg1 e tas 10000 roc dT = seg2 e tas 10000 roc dT := by
  unfold seg1 seg2; ring

end Verif.Thrust
