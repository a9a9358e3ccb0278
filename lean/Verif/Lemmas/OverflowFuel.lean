import Verif.Lemmas.Overflow
import Verif.Spec.Rounding

/-! Fuel flow on a carrier that overflows. -/

namespace Verif.XR
open Verif.Aero Verif.Spec Verif.Fuel Real

variable {Ω : ℝ} (hΩ : (10 : ℝ) ^ 30 < Ω)

theorem softplus_fin {z : ℝ} (h : 1 + exp z < Ω) :
    (ovf Ω).log ((1.0 : XR Ω) + (ovf Ω).exp (fin z)) = fin (sp z) := by
  have e := exp_pos z
  rw [fin_exp (by linarith), fin_sci, fin_add (by
    rw [abs_of_pos (by positivity)]; norm_num; linarith), fin_log (by positivity)]
  unfold sp
  norm_num

theorem pinf_fin_add (z : ℝ) : (fin z : XR Ω) + pinf = pinf := rfl

theorem softplus_pinf {z : ℝ} (h : Ω ≤ 1 + exp z) :
    (ovf Ω).log ((1.0 : XR Ω) + (ovf Ω).exp (fin z)) = pinf := by
  by_cases hz : exp z < Ω
  · rw [fin_exp hz, fin_sci]
    have : (fin 1.0 : XR Ω) + fin (exp z) = pinf := by
      change res (1.0 + exp z) = _
      exact res_pinf (by norm_num; exact h)
    rw [this]; rfl
  · push Not at hz
    have : (ovf Ω).exp (fin z) = pinf := res_pinf hz
    rw [this]; rfl

variable {f : Fuel.Params ℝ} (hf : FuelRange f.scale f.c1 f.c2 f.c3 f.maxThrust f.number)

theorem log_Ω (hΩ : (10 : ℝ) ^ 30 < Ω) : 69 < log Ω := by
  rw [lt_log_iff_exp_lt (lt_trans (by positivity) hΩ)]
  refine lt_trans ?_ hΩ
  have h1 := exp_one_lt_d9
  have e : exp 69 = exp 1 ^ 69 := by rw [← exp_nat_mul]; norm_num
  rw [e]
  calc exp 1 ^ 69 ≤ 2.7182818286 ^ 69 := pow_le_pow_left₀ (exp_pos 1).le h1.le 69
    _ < 10 ^ 30 := by norm_num

include hΩ in
/-- What the fuel curve computes below the overflow of the limiter. -/
theorem funcFuel_fin (hf : FuelRange f.scale f.c1 f.c2 f.c3 f.maxThrust f.number) {x : ℝ}
    (h0 : 0 < x) (hx : x ≤ 0.002 * log Ω + 1.1) :
    funcFuel (ovf Ω) (Rec.fuel fin f) (fin x) = fin (funcFuel np f x) ∧
    0 ≤ funcFuel np f x ∧ funcFuel np f x ≤ 4000 := by
  obtain ⟨hs, h1, h2, h3, -, -⟩ := hf
  have hl := log_Ω hΩ
  have hp : 0 < Ω := lt_trans (by positivity) hΩ
  have c1p : 0 < f.c1 := by linarith
  have c2p : 0 < f.c2 := by linarith
  have c3p : 0 < f.c3 := by linarith
  set E := exp (0.1 * log Ω) with hE
  have E1 : 100 ≤ E := by
    have e5 : exp 5 = exp 1 ^ 5 := by rw [← exp_nat_mul]; norm_num
    calc (100 : ℝ) ≤ 2.7 ^ 5 := by norm_num
      _ ≤ exp 1 ^ 5 := pow_le_pow_left₀ (by norm_num) (by have := exp_one_gt_d9; linarith) 5
      _ = exp 5 := e5.symm
      _ ≤ E := exp_le_exp.2 (by linarith)
  have E2 : E * 10 ^ 18 ≤ Ω := by
    have e10 : E ^ 10 = Ω := by
      rw [hE, ← exp_nat_mul, show ((10 : ℕ) : ℝ) * (0.1 * log Ω) = log Ω by push_cast; ring, exp_log hp]
    have : (100 : ℝ) ^ 9 ≤ E ^ 9 := pow_le_pow_left₀ (by norm_num) E1 9
    calc E * 10 ^ 18 = E * 100 ^ 9 := by norm_num
      _ ≤ E * E ^ 9 := by gcongr
      _ = Ω := by rw [← e10]; ring
  have k1 : f.c3 * x ≤ 3.5 * x := by nlinarith
  have k2 : exp (f.c3 * x) ≤ E := exp_le_exp.2 (by linarith)
  have k3 : x * exp (f.c3 * x) ≤ E := by
    have : x ≤ exp x := by have := add_one_le_exp x; linarith
    calc x * exp (f.c3 * x) ≤ exp x * exp (f.c3 * x) := by gcongr
      _ = exp (x + f.c3 * x) := (exp_add _ _).symm
      _ ≤ E := exp_le_exp.2 (by linarith)
  have k4 : 0 < x * exp (f.c3 * x) := by positivity
  have hΩb : 10 ^ 20 ≤ Ω := by linarith
  have l1 : log f.c1 ≤ 3 := by
    have := log_le_sub_one_of_pos c1p; linarith
  have l2 : -1 ≤ log f.c1 := by
    have := log_le_sub_one_of_pos (inv_pos.2 c1p)
    rw [log_inv] at this
    have : (f.c1)⁻¹ ≤ 2 := by
      rw [inv_le_comm₀ c1p (by norm_num)]; linarith
    linarith
  have l3 : |log f.c1 / f.c2| ≤ 6 := by
    rw [abs_div, abs_of_pos c2p, div_le_iff₀ c2p]
    have : |log f.c1| ≤ 3 := abs_le.2 ⟨by linarith, l1⟩
    linarith
  obtain ⟨l4, l5⟩ := abs_le.1 l3
  have m1 : |f.c2 * (x * exp (f.c3 * x) - log f.c1 / f.c2)| ≤ 3 * (E + 6) := by
    rw [abs_mul, abs_of_pos c2p]
    refine mul_le_mul h2.2 (abs_le.2 ⟨by linarith, by linarith⟩) (abs_nonneg _) (by norm_num)
  have m2 : exp (-f.c2 * (x * exp (f.c3 * x) - log f.c1 / f.c2)) =
      f.c1 * exp (-(f.c2 * (x * exp (f.c3 * x)))) := by
    rw [show -f.c2 * (x * exp (f.c3 * x) - log f.c1 / f.c2) =
      log f.c1 + -(f.c2 * (x * exp (f.c3 * x))) by field_simp; ring, exp_add, exp_log c1p]
  have m3 : exp (-(f.c2 * (x * exp (f.c3 * x)))) ≤ 1 := by
    rw [exp_le_one_iff]; have := mul_pos c2p k4; linarith
  have m4 := exp_pos (-(f.c2 * (x * exp (f.c3 * x))))
  have m5 : f.c1 * exp (-(f.c2 * (x * exp (f.c3 * x)))) ≤ f.c1 := by nlinarith
  have m6 : 0 < f.c1 * exp (-(f.c2 * (x * exp (f.c3 * x)))) := by positivity
  have hv : funcFuel np f x = f.scale * (f.c1 - f.c1 * exp (-(f.c2 * (x * exp (f.c3 * x))))) := by
    rw [← m2]; rfl
  have v0 : 0 ≤ funcFuel np f x := by rw [hv]; exact mul_nonneg (by linarith) (by linarith)
  have v1 : funcFuel np f x ≤ 4000 := by
    rw [hv]
    calc f.scale * (f.c1 - f.c1 * exp (-(f.c2 * (x * exp (f.c3 * x))))) ≤ 1000 * 4 :=
          mul_le_mul hs.2 (by linarith) (by linarith) (by norm_num)
      _ = _ := by norm_num
  refine ⟨?_, v0, v1⟩
  unfold funcFuel
  simp only [Rec.fuel]
  have k5 := add_one_le_exp (f.c3 * x)
  rw [fin_mul (x := f.c3) (by rw [abs_of_pos (by positivity)]; linarith), fin_exp (by linarith),
    fin_mul (x := x) (by rw [abs_of_pos k4]; linarith), fin_log c1p,
    fin_div c2p.ne' (by linarith), fin_sub (abs_lt.2 ⟨by linarith, by linarith⟩), fin_neg,
    fin_mul (x := -f.c2) (by rw [neg_mul, abs_neg]; linarith),
    fin_exp (by rw [m2]; linarith), fin_sub (by
      rw [m2]; exact abs_lt.2 ⟨by linarith, by linarith⟩),
    fin_mul (by
      rw [m2, ← hv, abs_of_nonneg v0]; linarith)]
  rfl

/-- The ratio of thrust to maximum thrust. -/
theorem ratio_fin {T : ℝ} (hΩ : (10 : ℝ) ^ 30 < Ω) (hT : |T| ≤ 10 ^ 25)
    (hf : FuelRange f.scale f.c1 f.c2 f.c3 f.maxThrust f.number) :
    (fin T / fin f.number) / (fin f.maxThrust : XR Ω) = fin (T / f.number / f.maxThrust) ∧
    |T / f.number / f.maxThrust| ≤ 10 ^ 25 := by
  obtain ⟨-, -, -, -, hm, hn⟩ := hf
  have np : 0 < f.number := by linarith
  have mp : 0 < f.maxThrust := by linarith
  have h1 : |T / f.number| ≤ 10 ^ 25 := by
    rw [abs_div, abs_of_pos np, div_le_iff₀ np]; nlinarith
  have h2 : |T / f.number / f.maxThrust| ≤ 10 ^ 25 := by
    rw [abs_div, abs_of_pos mp, div_le_iff₀ mp]; nlinarith
  refine ⟨?_, h2⟩
  rw [fin_div np.ne' (by linarith), fin_div mp.ne' (by linarith)]

theorem args_fin {r : ℝ} (hΩ : (10 : ℝ) ^ 30 < Ω) (hr : |r| ≤ 10 ^ 25) :
    (50.0 : XR Ω) * (fin r - 0.03) = fin (50 * (r - 0.03)) ∧
    (45.0 : XR Ω) * (fin r - 1.2) = fin (45 * (r - 1.2)) := by
  obtain ⟨h1, h2⟩ := abs_le.1 hr
  refine ⟨?_, ?_⟩
  · rw [fin_sci, fin_sci, fin_sub (abs_lt.2 ⟨by linarith, by linarith⟩),
      fin_mul (abs_lt.2 ⟨by linarith, by linarith⟩)]
    norm_num
  · rw [fin_sci, fin_sci, fin_sub (abs_lt.2 ⟨by linarith, by linarith⟩),
      fin_mul (abs_lt.2 ⟨by linarith, by linarith⟩)]
    norm_num

theorem sp50_fin (hΩ : (10 : ℝ) ^ 30 < Ω) :
    (ovf Ω).log ((1.0 : XR Ω) + (ovf Ω).exp 50.0) = fin (sp 50) := by
  have e : (50.0 : XR Ω) = fin 50 := by rw [fin_sci]; norm_num
  rw [e]
  refine softplus_fin ?_
  refine lt_trans ?_ hΩ
  have h1 := exp_one_lt_d9
  have e : exp 50 = exp 1 ^ 50 := by rw [← exp_nat_mul]; norm_num
  rw [e]
  calc 1 + exp 1 ^ 50 ≤ 1 + 2.7182818286 ^ 50 := by gcongr
    _ < 10 ^ 30 := by norm_num

include hΩ in
/-- The limiter below overflow. -/
theorem limiter_fin {r : ℝ} (hr : |r| ≤ 10 ^ 25) (h : 1 + exp (50 * (r - 0.03)) < Ω) :
    1 + exp (45 * (r - 1.2)) < Ω ∧ limiter (ovf Ω) (fin r) = fin (limiter np r) ∧
    limiter np r ≤ 0.002 * log Ω + 1.1 := by
  have hl := log_Ω hΩ
  have hp : 0 < Ω := lt_trans (by positivity) hΩ
  obtain ⟨a1, a2⟩ := args_fin hΩ hr
  have s1 : sp (50 * (r - 0.03)) < log Ω := by
    unfold sp
    exact log_lt_log (by have := exp_pos (50 * (r - 0.03)); linarith) h
  have z1 : 50 * (r - 0.03) < log Ω := (sp_gt _).trans s1
  have h2 : 1 + exp (45 * (r - 1.2)) < Ω := by
    by_cases hr' : -10.5 ≤ r
    · have : exp (45 * (r - 1.2)) ≤ exp (50 * (r - 0.03)) :=
        exp_le_exp.2 (by norm_num at hr' ⊢; linarith)
      linarith
    · have : exp (45 * (r - 1.2)) ≤ 1 := by
        rw [exp_le_one_iff]; push Not at hr'; norm_num at hr' ⊢; linarith
      linarith
  have s2 : sp (45 * (r - 1.2)) < log Ω := by
    unfold sp
    exact log_lt_log (by have := exp_pos (45 * (r - 1.2)); linarith) h2
  have p1 := sp_pos (50 * (r - 0.03))
  have p2 := sp_pos (45 * (r - 1.2))
  have p5 := sp50
  have lΩ : log Ω < Ω := by have := log_le_sub_one_of_pos hp; linarith
  have hq : |(sp (50 * (r - 0.03)) - sp (45 * (r - 1.2))) / sp 50| ≤ log Ω / 50 := by
    rw [abs_div, abs_of_pos (by linarith : 0 < sp 50), div_le_div_iff₀ (by linarith) (by norm_num)]
    have : |sp (50 * (r - 0.03)) - sp (45 * (r - 1.2))| ≤ log Ω := abs_le.2 ⟨by linarith, by linarith⟩
    nlinarith
  have hlim : limiter (ovf Ω) (fin r) = fin (limiter np r) := by
    rw [limiter_eq]
    unfold limiter
    rw [a1, a2, softplus_fin h, softplus_fin h2, sp50_fin hΩ,
      fin_sub (abs_lt.2 ⟨by linarith, by linarith⟩), fin_div (by linarith) (by linarith), fin_sci,
      fin_add (by
        obtain ⟨q1, q2⟩ := abs_le.1 hq
        exact abs_lt.2 ⟨by linarith, by linarith⟩)]
  have hx : limiter np r ≤ 0.002 * log Ω + 1.1 := by
    rw [limiter_eq]
    have u1 : sp (50 * (r - 0.03)) ≤ max (50 * (r - 0.03)) 0 + 0.7 := by
      unfold sp
      have hp : 0 < 1 + exp (50 * (r - 0.03)) := by have := exp_pos (50 * (r - 0.03)); linarith
      rw [log_le_iff_le_exp hp, exp_add]
      have h2 : (2 : ℝ) ≤ exp 0.7 := by
        rw [← log_le_iff_le_exp (by norm_num)]
        have := log_two_lt_d9; norm_num at this ⊢; linarith
      have h3 : exp (50 * (r - 0.03)) ≤ exp (max (50 * (r - 0.03)) 0) := exp_le_exp.2 (le_max_left _ _)
      have h4 : 1 ≤ exp (max (50 * (r - 0.03)) 0) := one_le_exp (le_max_right _ _)
      nlinarith
    have u2 : 45 * (r - 1.2) < sp (45 * (r - 1.2)) := sp_gt _
    have u3 : sp (50 * (r - 0.03)) - sp (45 * (r - 1.2)) ≤ 0.1 * log Ω + 53.35 := by
      rcases max_cases (50 * (r - 0.03)) 0 with ⟨e, -⟩ | ⟨e, -⟩ <;> rw [e] at u1 <;> linarith
    have : (sp (50 * (r - 0.03)) - sp (45 * (r - 1.2))) / sp 50 ≤ 0.002 * log Ω + 1.067 := by
      rw [div_le_iff₀ (by linarith)]
      have : (0.002 * log Ω + 1.067) * 50 ≤ (0.002 * log Ω + 1.067) * sp 50 := by gcongr
      linarith
    linarith
  exact ⟨h2, hlim, hx⟩

include hΩ in
/-- **Below overflow.** -/
theorem atThrust_exact (hf : FuelRange f.scale f.c1 f.c2 f.c3 f.maxThrust f.number) {T : ℝ}
    (hT : |T| ≤ 10 ^ 25) (h : 1 + exp (50 * (T / f.number / f.maxThrust - 0.03)) < Ω) :
    atThrust (ovf Ω) (Rec.fuel fin f) (fin T) = fin (atThrust np f T) := by
  obtain ⟨e1, hr⟩ := ratio_fin hΩ hT hf
  set r := T / f.number / f.maxThrust with hrd
  obtain ⟨-, hlim, hx⟩ := limiter_fin hΩ hr h
  obtain ⟨g1, g2, g3⟩ := funcFuel_fin hΩ hf (limiter_pos r) hx
  obtain ⟨-, -, -, -, -, hn⟩ := hf
  have e0 : (Rec.fuel (fin : ℝ → XR Ω) f).number = fin f.number := rfl
  have em : (Rec.fuel (fin : ℝ → XR Ω) f).maxThrust = fin f.maxThrust := rfl
  unfold atThrust
  simp only [e0, em]
  rw [e1, hlim, g1, fin_mul (by
    rw [abs_of_nonneg (mul_nonneg g2 (by linarith))]
    calc funcFuel np f (limiter np r) * f.number ≤ 4000 * 10 :=
          mul_le_mul g3 hn.2 (by linarith) (by norm_num)
      _ < Ω := by linarith)]

include hΩ in
/-- **One exponential overflows.** -/
theorem atThrust_saturated (hf : FuelRange f.scale f.c1 f.c2 f.c3 f.maxThrust f.number) {T : ℝ}
    (hT : |T| ≤ 10 ^ 25) (h : Ω ≤ 1 + exp (50 * (T / f.number / f.maxThrust - 0.03)))
    (h2 : 1 + exp (45 * (T / f.number / f.maxThrust - 1.2)) < Ω) :
    atThrust (ovf Ω) (Rec.fuel fin f) (fin T) = fin (f.scale * f.c1 * f.number) := by
  obtain ⟨e1, hr⟩ := ratio_fin hΩ hT hf
  obtain ⟨a1, a2⟩ := args_fin hΩ hr
  obtain ⟨hs, hc1, hc2, hc3, -, hn⟩ := hf
  have p5 := sp50
  have c2p : 0 < f.c2 := by linarith
  have c1p : 0 < f.c1 := by linarith
  have hlim : limiter (ovf Ω) (fin (T / f.number / f.maxThrust)) = pinf := by
    unfold limiter
    rw [a1, a2, softplus_pinf h, softplus_fin h2, sp50_fin hΩ]
    have d : (pinf : XR Ω) / fin (sp 50) = pinf := by
      change (if 0 ≤ sp 50 then pinf else minf) = _
      rw [if_pos (by linarith)]
    have s : (pinf : XR Ω) - fin (sp (45 * (T / f.number / f.maxThrust - 1.2))) = pinf := rfl
    rw [s, d]; rfl
  have hfun : funcFuel (ovf Ω) (Rec.fuel fin f) pinf = fin (f.scale * f.c1) := by
    unfold funcFuel
    simp only [Rec.fuel]
    have m1 : (fin f.c3 : XR Ω) * pinf = pinf := by
      change scaled f.c3 pinf = _
      rw [scaled, if_pos (by linarith)]
    have m2 : (ovf Ω).exp (pinf : XR Ω) = pinf := rfl
    have m3 : (pinf : XR Ω) * pinf = pinf := rfl
    have l1 : log f.c1 ≤ 3 := by have := log_le_sub_one_of_pos c1p; linarith
    have l2 : -1 ≤ log f.c1 := by
      have := log_le_sub_one_of_pos (inv_pos.2 c1p)
      rw [log_inv] at this
      have : (f.c1)⁻¹ ≤ 2 := by rw [inv_le_comm₀ c1p (by norm_num)]; linarith
      linarith
    have l3 : |log f.c1 / f.c2| < Ω := by
      rw [abs_div, abs_of_pos c2p, div_lt_iff₀ c2p]
      have : |log f.c1| ≤ 3 := abs_le.2 ⟨by linarith, l1⟩
      nlinarith
    have m4 : ∀ z : ℝ, (pinf : XR Ω) - fin z = pinf := fun _ => rfl
    have m5 : (fin (-f.c2) : XR Ω) * pinf = minf := by
      change scaled (-f.c2) pinf = _
      rw [scaled, if_neg (by linarith), if_pos (by linarith)]; rfl
    have m6 : (ovf Ω).exp (minf : XR Ω) = fin 0 := rfl
    rw [m1, m2, m3, fin_log c1p, fin_div c2p.ne' l3, m4, fin_neg, m5, m6, fin_sub (by
      rw [sub_zero, abs_of_pos c1p]; linarith), sub_zero, fin_mul (by
      rw [abs_of_nonneg (mul_nonneg (by linarith) c1p.le)]
      calc f.scale * f.c1 ≤ 1000 * 4 := mul_le_mul hs.2 hc1.2 c1p.le (by norm_num)
        _ < Ω := by linarith)]
  have e0 : (Rec.fuel (fin : ℝ → XR Ω) f).number = fin f.number := rfl
  have em : (Rec.fuel (fin : ℝ → XR Ω) f).maxThrust = fin f.maxThrust := rfl
  unfold atThrust
  simp only [e0, em]
  rw [e1, hlim, hfun, fin_mul (by
    rw [abs_of_nonneg (mul_nonneg (mul_nonneg (by linarith) c1p.le) (by linarith))]
    have : f.scale * f.c1 ≤ 1000 * 4 := mul_le_mul hs.2 hc1.2 c1p.le (by norm_num)
    calc f.scale * f.c1 * f.number ≤ 1000 * 4 * 10 :=
          mul_le_mul this hn.2 (by linarith) (by norm_num)
      _ < Ω := by linarith)]

include hΩ in
/-- **Both exponentials overflow.** -/
theorem atThrust_nan (hf : FuelRange f.scale f.c1 f.c2 f.c3 f.maxThrust f.number) {T : ℝ}
    (hT : |T| ≤ 10 ^ 25) (h : Ω ≤ 1 + exp (45 * (T / f.number / f.maxThrust - 1.2))) :
    atThrust (ovf Ω) (Rec.fuel fin f) (fin T) = nan := by
  obtain ⟨e1, hr⟩ := ratio_fin hΩ hT hf
  obtain ⟨a1, a2⟩ := args_fin hΩ hr
  set r := T / f.number / f.maxThrust with hrd
  have h1 : Ω ≤ 1 + exp (50 * (r - 0.03)) := by
    have hr' : 1.2 < r := by
      by_contra hc
      push Not at hc
      have : exp (45 * (r - 1.2)) ≤ 1 := by rw [exp_le_one_iff]; linarith
      linarith
    have : exp (45 * (r - 1.2)) ≤ exp (50 * (r - 0.03)) := exp_le_exp.2 (by linarith)
    linarith
  have hlim : limiter (ovf Ω) (fin r) = nan := by
    unfold limiter
    rw [a1, a2, softplus_pinf h1, softplus_pinf h]
    rfl
  have e0 : (Rec.fuel (fin : ℝ → XR Ω) f).number = fin f.number := rfl
  have em : (Rec.fuel (fin : ℝ → XR Ω) f).maxThrust = fin f.maxThrust := rfl
  unfold atThrust
  simp only [e0, em]
  rw [e1, hlim]
  unfold funcFuel
  simp only [Rec.fuel]
  rfl

end Verif.XR
