import Verif.Lemmas.Calc
import Verif.Lemmas.Airspeed
import Verif.Lemmas.Thrust

/-! Derivatives of the atmosphere and the airspeed conversions. -/

namespace Verif.AD
open Verif.NR Verif.Spec Verif.Aero

variable {E : Type} [NormedAddCommGroup E] [NormedSpace ℝ E] {h d u m : E → ℝ} {x : E} {v : Mode x} [Laws v]
  {H D U M : v.N}

theorem Clear.comp {f : E → ℝ} {c : ℝ} (h : Clear f x c) {φ : ℝ → ℝ}
    (hφ : ∀ a, φ a = φ c → a = c) : Clear (fun y => φ (f y)) x (φ c) := by
  rcases h with h | h
  · exact Or.inl fun e => h (hφ _ e)
  · exact Or.inr (h.mono fun y hy => by simp only [hy])

theorem Clear.mul {f : E → ℝ} {c k c' : ℝ} (h : Clear f x c) (hk : k ≠ 0) (e : c' = c * k) :
    Clear (fun y => f y * k) x c' := by
  subst e
  exact Clear.comp h (φ := fun a => a * k) fun a ha => mul_right_cancel₀ hk ha

theorem Clear.const (a c : ℝ) : Clear (fun _ : E => a) x c := by
  by_cases h : a = c
  · exact Or.inr (Filter.Eventually.of_forall fun _ => h)
  · exact Or.inl h

/-- The clipped offset has its derivative. -/
def ClipT (d : E → ℝ) (x : E) (v : Mode x) (D : v.N) : Prop :=
  Ex (fun y => np.clip (d y) (-25.0) 15.0) x v (v.b.clip D (-25.0) 15.0)

/-- The three outputs of `atmos`, given the derivative of the clipped offset. -/
theorem atmosT (hh : Ex h x v H) (hS : ClipT d x v D) (h11 : Clear h x 11000) :
    Ex (fun y => pressure np (h y) (d y)) x v (pressure v.b H D) ∧
    Ex (fun y => density np (h y) (d y)) x v (density v.b H D) ∧
    Ex (fun y => temperature np (h y) (d y)) x v (temperature v.b H D) := by
  have t0 := addT (sciT (v := v) _ _ _ : Ex (fun _ : E => (T0 : ℝ)) x v T0) hS
  have tT := maxT (addT t0 (mulT (negT (sciT _ _ _) : Ex (fun _ : E => (beta : ℝ)) x v beta) hh))
    (addT (sciT (v := v) _ _ _ : Ex (fun _ : E => (216.65 : ℝ)) x v 216.65) hS) (by
      rcases h11 with h11 | h11
      · left
        intro e
        apply h11
        generalize np.clip (d x) (-25.0) 15.0 = c at e
        norm_num [T0, beta] at e
        linarith
      · right
        exact h11.mono fun y hy => by
          show T0 + np.clip (d y) (-25.0) 15.0 + beta * h y = 216.65 + np.clip (d y) (-25.0) 15.0
          rw [hy]
          generalize np.clip (d y) (-25.0) 15.0 = c
          norm_num [T0, beta]; ring)
  have hT : 0 < temperature np (h x) (d x) := by rw [temperature_eq]; exact temp_pos _ _
  have h0 : 0 < T0 + np.clip (d x) (-25.0) 15.0 := by rw [clip_shift]; exact T0s_pos _
  have tr := mulT (mulT (sciT (v := v) _ _ _ : Ex (fun _ : E => (rho0 : ℝ)) x v rho0)
    (powerT (divT tT t0 h0.ne') (sciT _ _ _ :
      Ex (fun _ : E => (4.256848030018761 : ℝ)) x v 4.256848030018761) (div_pos hT h0)))
    (expT (divT (negT (maxT (sciT (v := v) _ _ _ :
      Ex (fun _ : E => (0.0 : ℝ)) x v 0.0) (subT hh (sciT _ _ _ :
      Ex (fun _ : E => (11000.0 : ℝ)) x v 11000.0)) (by
        rcases h11 with h11 | h11
        · left; intro e; apply h11; norm_num at e; linarith
        · right; exact h11.mono fun y hy => by simp only [hy]; norm_num))) (sciT _ _ _ :
      Ex (fun _ : E => (6341.552161 : ℝ)) x v 6341.552161) (by norm_num)))
  exact ⟨mulT (mulT tr (sciT _ _ _ : Ex (fun _ : E => (R : ℝ)) x v R)) tT, tr, tT⟩

theorem vsoundT (hh : Ex h x v H) (hS : ClipT d x v D) (h11 : Clear h x 11000) :
    Ex (fun y => vsound np (h y) (d y)) x v (vsound v.b H D) := by
  refine sqrtT (mulT (mulT (sciT _ _ _) (sciT _ _ _)) (atmosT hh hS h11).2.2) ?_
  have : 0 < temperature np (h x) (d x) := by rw [temperature_eq]; exact temp_pos _ _
  have h2 : (0 : ℝ) < gamma * R := by norm_num [gamma, R]
  exact mul_pos h2 this

theorem tas2machT (hu : Ex u x v U) (hh : Ex h x v H) (hS : ClipT d x v D)
    (h11 : Clear h x 11000) :
    Ex (fun y => tas2mach np (u y) (h y) (d y)) x v (tas2mach v.b U H D) :=
  divT hu (vsoundT hh hS h11) (vsound_pos _ _).ne'

theorem mach2tasT (hu : Ex u x v U) (hh : Ex h x v H) (hS : ClipT d x v D)
    (h11 : Clear h x 11000) :
    Ex (fun y => mach2tas np (u y) (h y) (d y)) x v (mach2tas v.b U H D) :=
  mulT hu (vsoundT hh hS h11)

theorem eas2tasT (hu : Ex u x v U) (hh : Ex h x v H) (hS : ClipT d x v D)
    (h11 : Clear h x 11000) :
    Ex (fun y => eas2tas np (u y) (h y) (d y)) x v (eas2tas v.b U H D) :=
  mulT hu (sqrtT (divT (sciT _ _ _ : Ex (fun _ : E => (rho0 : ℝ)) x v rho0)
    (atmosT hh hS h11).2.1 (density_pos _ _).ne') (div_pos (by norm_num [rho0]) (density_pos _ _)))

theorem tas2easT (hu : Ex u x v U) (hh : Ex h x v H) (hS : ClipT d x v D)
    (h11 : Clear h x 11000) :
    Ex (fun y => tas2eas np (u y) (h y) (d y)) x v (tas2eas v.b U H D) :=
  mulT hu (sqrtT (divT (atmosT hh hS h11).2.1
    (sciT _ _ _ : Ex (fun _ : E => (rho0 : ℝ)) x v rho0) (by norm_num [rho0]))
    (div_pos (density_pos _ _) (by norm_num [rho0])))

theorem speed_pos {w a : ℝ} {p r p' r' : ℝ} (hp : 0 < p) (hr : 0 < r) (hw : w ≠ 0) (ha : 0 ≤ a)
    (e : impactPressure p' r' a = impactPressure p r w) : 0 < a := by
  rcases ha.eq_or_lt with h0 | h0
  · exfalso
    rw [← h0, impact_zero, ← impact_abs] at e
    have := impact_strictMono hp hr le_rfl (abs_pos.2 hw)
    rw [impact_zero] at this
    linarith
  · exact h0

theorem cas2tas_arg (hu : Ex u x v U) (hh : Ex h x v H) (hS : ClipT d x v D)
    (h11 : Clear h x 11000) :
    ∃ (g : E → ℝ) (G : v.N), Ex g x v G ∧ cas2tas v.b U H D = v.b.sqrt G ∧
      (∀ y, cas2tas np (u y) (h y) (d y) = np.sqrt (g y)) ∧ (u x = 0 → g x = 0) := by
  obtain ⟨tp, tr, -⟩ := atmosT hh hS h11
  have hp := pressure_pos (h x) (d x)
  have hr := density_pos (h x) (d x)
  have k1 : 0 < 1.0 + rho0 * u x * u x / (7.0 * p0) := by
    have := mul_self_nonneg (u x)
    norm_num [rho0, p0]
    nlinarith
  have tq := mulT (sciT _ _ _ : Ex (fun _ : E => (p0 : ℝ)) x v p0)
    (subT (powerT (addT (sciT _ _ _ : Ex (fun _ : E => (1.0 : ℝ)) x v 1.0)
      (divT (mulT (mulT (sciT _ _ _ : Ex (fun _ : E => (rho0 : ℝ)) x v rho0) hu) hu)
        (mulT (sciT _ _ _ : Ex (fun _ : E => (7.0 : ℝ)) x v 7.0)
          (sciT _ _ _ : Ex (fun _ : E => (p0 : ℝ)) x v p0)) (by norm_num [p0])))
      (sciT _ _ _ : Ex (fun _ : E => (3.5 : ℝ)) x v 3.5) k1)
      (sciT _ _ _ : Ex (fun _ : E => (1.0 : ℝ)) x v 1.0))
  have k2 : 0 < 1.0 + p0 * (np.power (1.0 + rho0 * u x * u x / (7.0 * p0)) 3.5 - 1.0) /
      pressure np (h x) (d x) := by
    have : (1 : ℝ) ≤ (1.0 + rho0 * u x * u x / (7.0 * p0)) ^ (3.5 : ℝ) :=
      Real.one_le_rpow (by norm_num [rho0, p0]; nlinarith [mul_self_nonneg (u x)]) (by norm_num)
    have : 0 ≤ p0 * (np.power (1.0 + rho0 * u x * u x / (7.0 * p0)) 3.5 - 1.0) :=
      mul_nonneg (by norm_num [p0]) (by show (0:ℝ) ≤ _ ^ (3.5:ℝ) - 1.0; norm_num at this ⊢; linarith)
    have := div_nonneg this hp.le
    have e1 : (1.0 : ℝ) = 1 := by norm_num
    rw [e1] at this ⊢
    linarith
  refine ⟨_, _, mulT (divT (mulT (sciT _ _ _ : Ex (fun _ : E => (7.0 : ℝ)) x v 7.0) tp) tr
    hr.ne') (subT (powerT (addT (sciT _ _ _ : Ex (fun _ : E => (1.0 : ℝ)) x v 1.0)
      (divT tq tp hp.ne')) (divT (sciT _ _ _ : Ex (fun _ : E => (2.0 : ℝ)) x v 2.0)
        (sciT _ _ _ : Ex (fun _ : E => (7.0 : ℝ)) x v 7.0) (by norm_num)) k2)
      (sciT _ _ _ : Ex (fun _ : E => (1.0 : ℝ)) x v 1.0)), rfl, fun _ => rfl, ?_⟩
  intro h0
  show 7.0 * pressure np (h x) (d x) / density np (h x) (d x) * ((1.0 + p0 *
    ((1.0 + rho0 * u x * u x / (7.0 * p0)) ^ (3.5 : ℝ) - 1.0) / pressure np (h x) (d x)) ^
      (2.0 / 7.0 : ℝ) - 1.0) = 0
  have e1 : (1.0 : ℝ) = 1 := by norm_num
  rw [h0, e1]
  simp

theorem cas2tasT (hu : Ex u x v U) (hh : Ex h x v H) (hS : ClipT d x v D)
    (h11 : Clear h x 11000) (h0 : u x ≠ 0) :
    Ex (fun y => cas2tas np (u y) (h y) (d y)) x v (cas2tas v.b U H D) := by
  obtain ⟨g, G, tg, e1, e2, -⟩ := cas2tas_arg hu hh hS h11
  rw [e1]
  have hp := pressure_pos (h x) (d x)
  have hr := density_pos (h x) (d x)
  obtain ⟨c1, c2⟩ := cas2tas_spec (u x) (h x) (d x)
  have cp : 0 < cas2tas np (u x) (h x) (d x) := speed_pos (by norm_num) (by norm_num) h0 c1 c2
  rw [e2] at cp
  simp only [e2]
  exact sqrtT tg (Real.sqrt_pos.1 cp)

theorem tas2cas_arg (hu : Ex u x v U) (hh : Ex h x v H) (hS : ClipT d x v D)
    (h11 : Clear h x 11000) :
    ∃ (g : E → ℝ) (G : v.N), Ex g x v G ∧ tas2cas v.b U H D = v.b.sqrt G ∧
      (∀ y, tas2cas np (u y) (h y) (d y) = np.sqrt (g y)) ∧ (u x = 0 → g x = 0) := by
  obtain ⟨tp, tr, -⟩ := atmosT hh hS h11
  have hp := pressure_pos (h x) (d x)
  have hr := density_pos (h x) (d x)
  have k0 : 0 ≤ density np (h x) (d x) * u x * u x / (7.0 * pressure np (h x) (d x)) := by
    have := mul_self_nonneg (u x)
    rw [mul_assoc]; positivity
  have k1 : 0 < 1.0 + density np (h x) (d x) * u x * u x / (7.0 * pressure np (h x) (d x)) := by
    have e1 : (1.0 : ℝ) = 1 := by norm_num
    rw [e1]; linarith
  have tq := mulT tp
    (subT (powerT (addT (sciT _ _ _ : Ex (fun _ : E => (1.0 : ℝ)) x v 1.0)
      (divT (mulT (mulT tr hu) hu)
        (mulT (sciT _ _ _ : Ex (fun _ : E => (7.0 : ℝ)) x v 7.0) tp)
        (mul_pos (by norm_num) hp).ne'))
      (sciT _ _ _ : Ex (fun _ : E => (3.5 : ℝ)) x v 3.5) k1)
      (sciT _ _ _ : Ex (fun _ : E => (1.0 : ℝ)) x v 1.0))
  have k2 : 0 < pressure np (h x) (d x) * (np.power (1.0 + density np (h x) (d x) * u x * u x /
      (7.0 * pressure np (h x) (d x))) 3.5 - 1.0) / p0 + 1.0 := by
    have e1 : (1.0 : ℝ) = 1 := by norm_num
    have : (1 : ℝ) ≤ (1.0 + density np (h x) (d x) * u x * u x /
        (7.0 * pressure np (h x) (d x))) ^ (3.5 : ℝ) :=
      Real.one_le_rpow (by rw [e1]; linarith) (by norm_num)
    have : 0 ≤ pressure np (h x) (d x) * (np.power (1.0 + density np (h x) (d x) * u x * u x /
        (7.0 * pressure np (h x) (d x))) 3.5 - 1.0) :=
      mul_nonneg hp.le (by show (0:ℝ) ≤ _ ^ (3.5:ℝ) - 1.0; rw [e1] at this ⊢; linarith)
    have := div_nonneg this (show (0 : ℝ) ≤ p0 by norm_num [p0])
    rw [e1] at this ⊢
    linarith
  refine ⟨_, _, mulT (divT (mulT (sciT _ _ _ : Ex (fun _ : E => (7.0 : ℝ)) x v 7.0)
    (sciT _ _ _ : Ex (fun _ : E => (p0 : ℝ)) x v p0))
    (sciT _ _ _ : Ex (fun _ : E => (rho0 : ℝ)) x v rho0) (by norm_num [rho0]))
    (subT (powerT (addT (divT tq (sciT _ _ _ : Ex (fun _ : E => (p0 : ℝ)) x v p0)
      (by norm_num [p0])) (sciT _ _ _ : Ex (fun _ : E => (1.0 : ℝ)) x v 1.0))
      (divT (sciT _ _ _ : Ex (fun _ : E => (2.0 : ℝ)) x v 2.0)
        (sciT _ _ _ : Ex (fun _ : E => (7.0 : ℝ)) x v 7.0) (by norm_num)) k2)
      (sciT _ _ _ : Ex (fun _ : E => (1.0 : ℝ)) x v 1.0)), rfl, fun _ => rfl, ?_⟩
  intro h0
  show 7.0 * p0 / rho0 * ((pressure np (h x) (d x) * ((1.0 + density np (h x) (d x) * u x * u x /
      (7.0 * pressure np (h x) (d x))) ^ (3.5 : ℝ) - 1.0) / p0 + 1.0) ^
      (2.0 / 7.0 : ℝ) - 1.0) = 0
  have e1 : (1.0 : ℝ) = 1 := by norm_num
  rw [h0, e1]
  simp

theorem tas2casT (hu : Ex u x v U) (hh : Ex h x v H) (hS : ClipT d x v D)
    (h11 : Clear h x 11000) (h0 : u x ≠ 0) :
    Ex (fun y => tas2cas np (u y) (h y) (d y)) x v (tas2cas v.b U H D) := by
  obtain ⟨g, G, tg, e1, e2, -⟩ := tas2cas_arg hu hh hS h11
  rw [e1]
  have hp := pressure_pos (h x) (d x)
  have hr := density_pos (h x) (d x)
  obtain ⟨c1, c2⟩ := tas2cas_spec (u x) (h x) (d x)
  have cp : 0 < tas2cas np (u x) (h x) (d x) := speed_pos hp hr h0 c1 c2
  rw [e2] at cp
  simp only [e2]
  exact sqrtT tg (Real.sqrt_pos.1 cp)

theorem mach2casT (hu : Ex u x v U) (hh : Ex h x v H) (hS : ClipT d x v D)
    (h11 : Clear h x 11000) (h0 : u x ≠ 0) :
    Ex (fun y => mach2cas np (u y) (h y) (d y)) x v (mach2cas v.b U H D) :=
  tas2casT (mach2tasT hu hh hS h11) hh hS h11 (mul_ne_zero h0 (vsound_pos _ _).ne')

theorem cas2machT (hu : Ex u x v U) (hh : Ex h x v H) (hS : ClipT d x v D)
    (h11 : Clear h x 11000) (h0 : u x ≠ 0) :
    Ex (fun y => cas2mach np (u y) (h y) (d y)) x v (cas2mach v.b U H D) :=
  tas2machT (cas2tasT hu hh hS h11 h0) hh hS h11

/-- Pressure altitude: the offset is not clipped here. -/
theorem hIsaT {p : E → ℝ} {P : v.N} (hp : Ex p x v P) (hd : Ex d x v D)
    (h0 : 0 < p x) (h1 : Clear p x 22630) :
    Ex (fun y => hIsa np (p y) (d y)) x v (hIsa v.b P D) := by
  have t0 := addT (sciT _ _ _ : Ex (fun _ : E => (T0 : ℝ)) x v T0) hd
  have tb : Ex (fun _ : E => (beta : ℝ)) x v beta := negT (sciT _ _ _)
  have tR : Ex (fun _ : E => (R : ℝ)) x v R := sciT _ _ _
  have tg : Ex (fun _ : E => (g0 : ℝ)) x v g0 := sciT _ _ _
  have t11 : Ex (fun _ : E => (11000.0 : ℝ)) x v 11000.0 := sciT _ _ _
  have tT := mulT t0 (powerT (divT (sciT _ _ _ : Ex (fun _ : E => (p0 : ℝ)) x v p0) hp h0.ne')
    (divT (mulT tb tR) tg (by norm_num [g0])) (div_pos (by norm_num [p0]) h0))
  have th := divT (subT tT t0) tb (by norm_num [beta])
  have th1 := addT (mulT (divT (mulT (negT tR) (addT t0 (mulT tb t11))) tg (by norm_num [g0]))
    (logT (divT hp (sciT _ _ _ : Ex (fun _ : E => (22630.0 : ℝ)) x v 22630.0) (by norm_num))
      (div_pos h0 (by norm_num)))) t11
  exact whereT hp (sciT _ _ _ : Ex (fun _ : E => (22630.0 : ℝ)) x v 22630.0)
    th th1 (by
      have : (22630.0 : ℝ) = 22630 := by norm_num
      rw [this]; exact h1)

/-- Crossover altitude, for a calibrated airspeed other than zero. -/
theorem crossoverT (hu : Ex u x v U) (hm : Ex m x v M) (hd : Ex d x v D)
    (h0 : u x ≠ 0) (h1 : Clear m x 0.0001) :
    Ex (fun y => crossoverAlt np (u y) (m y) (d y)) x v (crossoverAlt v.b U M D) := by
  have t0 := addT (sciT _ _ _ : Ex (fun _ : E => (T0 : ℝ)) x v T0) hd
  have tb : Ex (fun _ : E => (beta : ℝ)) x v beta := negT (sciT _ _ _)
  have tR : Ex (fun _ : E => (R : ℝ)) x v R := sciT _ _ _
  have tg : Ex (fun _ : E => (g0 : ℝ)) x v g0 := sciT _ _ _
  have t1 : Ex (fun _ : E => (1.0 : ℝ)) x v 1.0 := sciT _ _ _
  have t2 : Ex (fun _ : E => (0.2 : ℝ)) x v 0.2 := sciT _ _ _
  have t35 : Ex (fun _ : E => (3.5 : ℝ)) x v 3.5 := sciT _ _ _
  have tm := maxT hm (sciT _ _ _ : Ex (fun _ : E => (1e-4 : ℝ)) x v 1e-4) (by
    rcases h1 with h1 | h1
    · left; norm_num at h1 ⊢; exact h1
    · right; exact h1.mono fun y hy => by norm_num at hy ⊢; exact hy)
  have gen : ∀ w : ℝ, w ≠ 0 → 0 < (0.2 * w ^ 2 + 1.0 : ℝ) ∧
      0 < (0.2 * w ^ 2 + 1.0 : ℝ) ^ (3.5 : ℝ) - 1.0 := by
    intro w hw
    have hw2 := sq_pos_of_ne_zero hw
    have e1 : (1.0 : ℝ) = 1 := by norm_num
    have : (1 : ℝ) < 0.2 * w ^ 2 + 1.0 := by rw [e1]; linarith
    have h2 := Real.one_lt_rpow this (show (0 : ℝ) < 3.5 by norm_num)
    rw [e1] at h2 this ⊢
    constructor <;> linarith
  have mp : max (m x) 1e-4 ≠ 0 := (lt_max_of_lt_right (by norm_num)).ne'
  have up : u x / a0 ≠ 0 := div_ne_zero h0 (by norm_num [a0])
  have tn := subT (powerT (addT (mulT t2 (powT (divT hu
    (sciT _ _ _ : Ex (fun _ : E => (a0 : ℝ)) x v a0) (by norm_num [a0])) 2 two_ne_zero)) t1)
    t35 (gen _ up).1) t1
  have td := subT (powerT (addT (mulT t2 (powT tm 2 two_ne_zero)) t1) t35 (gen _ mp).1) t1
  exact mulT (divT t0 tb (by norm_num [beta])) (subT (powerT (divT tn td (gen _ mp).2.ne')
    (divT (mulT (mulT (negT t1) tR) tb) tg (by norm_num [g0])) (div_pos (gen _ up).2 (gen _ mp).2)) t1)

end Verif.AD
