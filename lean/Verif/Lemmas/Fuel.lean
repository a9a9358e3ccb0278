import Verif.Model.Fuel
import Verif.Lemmas.Drag
import Mathlib.Analysis.Calculus.Deriv.MeanValue
import Mathlib.Analysis.SpecialFunctions.ExpDeriv
import Mathlib.Analysis.SpecialFunctions.Log.Deriv
import Mathlib.Analysis.Complex.ExponentialBounds

namespace Verif.Fuel
open Real

/-- Softplus. -/
noncomputable def sp (y : ℝ) : ℝ := log (1 + exp y)

theorem sp_pos (y : ℝ) : 0 < sp y := log_pos (by have := exp_pos y; linarith)

theorem sp_gt (y : ℝ) : y < sp y := by
  unfold sp
  rw [lt_log_iff_exp_lt (by have := exp_pos y; linarith)]
  linarith

theorem sp_le_exp (y : ℝ) : sp y ≤ exp y := by
  unfold sp
  have := log_le_sub_one_of_pos (show 0 < 1 + exp y by have := exp_pos y; linarith)
  linarith

theorem sp_le_add (y : ℝ) : sp y ≤ y + exp (-y) := by
  have e : sp y = y + sp (-y) := by
    unfold sp
    have : 1 + exp y = exp y * (1 + exp (-y)) := by
      rw [mul_add, mul_one, ← exp_add]; simp [add_comm]
    rw [this, log_mul (exp_pos y).ne' (by have := exp_pos (-y); linarith), log_exp]
  rw [e]
  linarith [sp_le_exp (-y)]

theorem sp_mono : StrictMono sp := by
  intro x y h
  unfold sp
  apply log_lt_log (by have := exp_pos x; linarith)
  have := exp_lt_exp.2 h
  linarith

theorem hasDerivAt_sp (y : ℝ) : HasDerivAt sp (1 - 1 / (1 + exp y)) y := by
  have hp : 0 < 1 + exp y := by have := exp_pos y; linarith
  have h1 : HasDerivAt (fun y => 1 + exp y) (exp y) y := (hasDerivAt_exp y).const_add 1
  have h2 := h1.log hp.ne'
  refine h2.congr_deriv ?_
  field_simp
  ring

theorem limiter_eq (r : ℝ) : limiter np r =
    (sp (50 * (r - 0.03)) - sp (45 * (r - 1.2))) / sp 50 + 0.03 := by
  simp only [limiter, np, sp]
  norm_num

theorem sp50 : 50 < sp 50 := sp_gt 50

theorem sp50_le : sp 50 ≤ 50.00001 := by
  have h := sp_le_add 50
  have h1 : exp (-50) ≤ 0.00001 := by
    have h2 : (2.7 : ℝ) ^ 50 ≤ exp 50 := by
      have := exp_one_gt_d9
      have e : exp 50 = exp 1 ^ 50 := by rw [← exp_nat_mul]; norm_num
      rw [e]
      exact pow_le_pow_left₀ (by norm_num) (by linarith) 50
    rw [exp_neg, inv_le_comm₀ (exp_pos _) (by norm_num)]
    refine le_trans ?_ h2
    norm_num
  linarith

/-- The limiter is strictly increasing above `-10.5`. -/
theorem limiter_strictMonoOn : StrictMonoOn (limiter np) (Set.Ici (-10.5)) := by
  have hd : ∀ r, HasDerivAt (fun r => sp (50 * (r - 0.03)) - sp (45 * (r - 1.2)))
      ((1 - 1 / (1 + exp (50 * (r - 0.03)))) * 50 -
        (1 - 1 / (1 + exp (45 * (r - 1.2)))) * 45) r := by
    intro r
    have h1 : HasDerivAt (fun r : ℝ => 50 * (r - 0.03)) 50 r := by
      simpa using ((hasDerivAt_id r).sub_const 0.03).const_mul 50
    have h2 : HasDerivAt (fun r : ℝ => 45 * (r - 1.2)) 45 r := by
      simpa using ((hasDerivAt_id r).sub_const 1.2).const_mul 45
    exact ((hasDerivAt_sp _).comp r h1).sub ((hasDerivAt_sp _).comp r h2)
  have hg : StrictMonoOn (fun r => sp (50 * (r - 0.03)) - sp (45 * (r - 1.2)))
      (Set.Ici (-10.5)) := by
    apply strictMonoOn_of_deriv_pos (convex_Ici _)
    · exact fun r _ => (hd r).continuousAt.continuousWithinAt
    · intro r hr
      rw [interior_Ici, Set.mem_Ioi] at hr
      rw [(hd r).deriv]
      have hle : 45 * (r - 1.2) ≤ 50 * (r - 0.03) := by norm_num at hr ⊢; linarith
      have he := exp_le_exp.2 hle
      have p1 := exp_pos (45 * (r - 1.2))
      have p2 := exp_pos (50 * (r - 0.03))
      have h1 : 1 / (1 + exp (50 * (r - 0.03))) ≤ 1 / (1 + exp (45 * (r - 1.2))) :=
        one_div_le_one_div_of_le (by linarith) (by linarith)
      have h2 : 1 / (1 + exp (50 * (r - 0.03))) < 1 := by
        rw [div_lt_one (by linarith)]; linarith
      nlinarith
  intro x hx y hy hxy
  rw [limiter_eq, limiter_eq]
  have := hg hx hy hxy
  have h50 : 0 < sp 50 := sp_pos 50
  have := div_lt_div_of_pos_right this h50
  linarith

theorem limiter_ge {r : ℝ} (h : -10.5 ≤ r) : 0.03 ≤ limiter np r := by
  rw [limiter_eq]
  have : sp (45 * (r - 1.2)) ≤ sp (50 * (r - 0.03)) :=
    sp_mono.monotone (by norm_num at h ⊢; linarith)
  have := div_nonneg (sub_nonneg.2 this) (sp_pos 50).le
  linarith

theorem limiter_lt {r : ℝ} (h : r < -10.5) : limiter np r < 0.03 := by
  rw [limiter_eq]
  have : sp (50 * (r - 0.03)) < sp (45 * (r - 1.2)) := sp_mono (by norm_num at h ⊢; linarith)
  have := div_neg_of_neg_of_pos (sub_neg.2 this) (sp_pos 50)
  linarith

theorem limiter_pos (r : ℝ) : 0 < limiter np r := by
  by_cases h : -10.5 ≤ r
  · have := limiter_ge h; norm_num at this ⊢; linarith
  · push Not at h
    rw [limiter_eq]
    have h1 := sp_pos (50 * (r - 0.03))
    have h2 := sp_le_exp (45 * (r - 1.2))
    have h3 : exp (45 * (r - 1.2)) ≤ 1 := exp_le_one_iff.2 (by norm_num at h ⊢; linarith)
    have h4 := sp50
    have h5 : -1 / 50 ≤ (sp (50 * (r - 0.03)) - sp (45 * (r - 1.2))) / sp 50 := by
      rw [le_div_iff₀ (by linarith)]
      nlinarith
    norm_num at h5 ⊢
    linarith

theorem funcFuel_eq (f : Params ℝ) (h1 : 0 < f.c1) (h2 : 0 < f.c2) (x : ℝ) :
    funcFuel np f x = f.scale * (f.c1 * (1 - exp (-(f.c2 * (x * exp (f.c3 * x)))))) := by
  simp only [funcFuel, np]
  have : -f.c2 * (x * exp (f.c3 * x) - log f.c1 / f.c2) =
      log f.c1 + -(f.c2 * (x * exp (f.c3 * x))) := by field_simp; ring
  rw [this, exp_add, exp_log h1]
  ring

theorem funcFuel_strictMono (f : Params ℝ) (hs : 0 < f.scale) (h1 : 0 < f.c1) (h2 : 0 < f.c2)
    (h3 : 0 ≤ f.c3) {x y : ℝ} (hx : 0 < x) (hxy : x < y) :
    funcFuel np f x < funcFuel np f y := by
  rw [funcFuel_eq f h1 h2, funcFuel_eq f h1 h2]
  have a : exp (f.c3 * x) ≤ exp (f.c3 * y) :=
    exp_le_exp.2 (mul_le_mul_of_nonneg_left hxy.le h3)
  have c : x * exp (f.c3 * x) < y * exp (f.c3 * y) := by
    have := exp_pos (f.c3 * x)
    nlinarith
  have d : exp (-(f.c2 * (y * exp (f.c3 * y)))) < exp (-(f.c2 * (x * exp (f.c3 * x)))) :=
    exp_lt_exp.2 (by nlinarith)
  have : f.c1 * (1 - exp (-(f.c2 * (x * exp (f.c3 * x))))) <
      f.c1 * (1 - exp (-(f.c2 * (y * exp (f.c3 * y))))) := by nlinarith
  exact mul_lt_mul_of_pos_left this hs

/-- Positive engine and model data. -/
structure Ok (f : Params ℝ) : Prop where
  scale : 0 < f.scale
  c1 : 0 < f.c1
  c2 : 0 < f.c2
  c3 : 0 ≤ f.c3
  max : 0 < f.maxThrust
  num : 0 < f.number

theorem atThrust_strictMono (f : Params ℝ) (hf : Ok f) {T1 T2 : ℝ}
    (h1 : -10.5 * (f.number * f.maxThrust) ≤ T1) (h12 : T1 < T2) :
    atThrust np f T1 < atThrust np f T2 := by
  have hn := hf.num
  have hm := hf.max
  have r1 : -10.5 ≤ T1 / f.number / f.maxThrust := by
    rw [div_div, le_div_iff₀ (by positivity)]; exact h1
  have r12 : T1 / f.number / f.maxThrust < T2 / f.number / f.maxThrust := by gcongr
  have hl := limiter_strictMonoOn (Set.mem_Ici.2 r1) (Set.mem_Ici.2 (r1.trans r12.le)) r12
  simp only [atThrust]
  exact mul_lt_mul_of_pos_right
    (funcFuel_strictMono f hf.scale hf.c1 hf.c2 hf.c3 (limiter_pos _) hl) hn

/-- Required thrust in plain terms. -/
theorem enrouteThrust_eq (ac : Drag.Airframe ℝ) (pol : Drag.Polar ℝ) (wave : Bool)
    (mass tas alt vs acc dT : ℝ) : enrouteThrust np ac pol wave mass tas alt vs acc dT =
    Drag.clean np ac pol wave mass tas alt vs dT +
      mass * 9.81 * sin (atan2R (vs * 0.00508) (tas * 0.514444)) + mass * acc := rfl

theorem sin_atan2_nonneg {w : ℝ} (v : ℝ) (h : 0 ≤ w) : 0 ≤ sin (atan2R w v) := by
  apply sin_nonneg_of_nonneg_of_le_pi
  · exact Complex.arg_nonneg_iff.2 h
  · exact Complex.arg_le_pi _

theorem sin_atan2_neg (w v : ℝ) : sin (atan2R (-w) v) = -sin (atan2R w v) := by
  have h1 := (Geo.cos_atan2 w v).2
  have h2 := (Geo.cos_atan2 (-w) v).2
  rw [neg_sq] at h2
  by_cases h : v = 0 ∧ w = 0
  · rw [h.1, h.2, neg_zero]
    have : atan2R 0 0 = 0 := Complex.arg_zero
    rw [this]; simp
  · have hp : 0 < v ^ 2 + w ^ 2 := by
      by_cases hv : v = 0
      · have hw : w ≠ 0 := fun hw => h ⟨hv, hw⟩
        have := sq_pos_of_ne_zero hw; positivity
      · have := sq_pos_of_ne_zero hv; positivity
    have hs := (sqrt_pos.2 hp).ne'
    have : (sin (atan2R (-w) v) + sin (atan2R w v)) * sqrt (v ^ 2 + w ^ 2) = 0 := by
      linarith
    rcases mul_eq_zero.1 this with h | h
    · linarith
    · exact absurd h hs

end Verif.Fuel
