import Verif.Lemmas.Envelope
import Verif.Spec.Envelope

/-!
# The speeds of every row
-/

namespace Verif.Gen
open Verif Verif.Aero Verif.Spec Verif.Props

theorem tas2cas_cas2tas {c : ℝ} (hc : 0 ≤ c) (h : ℝ) : tas2cas np (cas2tas np c h 0) h 0 = c := by
  rw [(C07_round_trips c h 0).2.2.2.2.1, abs_of_nonneg hc]

theorem tas2mach_mach2tas (m h : ℝ) : tas2mach np (mach2tas np m h 0) h 0 = m :=
  (C07_round_trips m h 0).2.1

/-- Within the schedule. -/
def Within (c m v h : ℝ) : Prop :=
  tas2cas np v h 0 ≤ 1.00001 * c ∧ tas2mach np v h 0 ≤ 1.0002 * m

section
variable {c m : ℝ} (hc : 0 < c) (hm : 1e-4 ≤ m) (h0 : 0 ≤ crossoverAlt np c m 0)
  (h1 : crossoverAlt np c m 0 ≤ 11000)
include hc hm h0 h1

theorem within_below {v h : ℝ} (hv : 0 ≤ v) (hh : h ≤ crossoverAlt np c m 0)
    (hcas : tas2cas np v h 0 ≤ c) : Within c m v h :=
  ⟨by linarith, mach_of_cas hv hc hm h0 h1 hh hcas⟩

theorem within_cas {h : ℝ} (hh : h ≤ crossoverAlt np c m 0) : Within c m (cas2tas np c h 0) h :=
  within_below hc hm h0 h1 (cas2tas_spec c h 0).1 hh (tas2cas_cas2tas hc.le h).le

theorem within_mach {h : ℝ} (hh : crossoverAlt np c m 0 ≤ h) :
    Within c m (mach2tas np m h 0) h := by
  have hm0 : 0 ≤ m := le_trans (by norm_num) hm
  have e := tas2mach_mach2tas m h
  exact ⟨cas_of_mach (mach2tas_nonneg hm0 h) hc hm h0 h1 hh e.le, by rw [e]; linarith⟩
end

/-- Invariant of the climb loop. -/
structure ClimbEnv (P : ClimbParams) (x : ClimbState) : Prop where
  inv : ClimbInv P x
  within : Within P.vcas P.mach x.v x.h
  roll : x.v < P.vTof → x.h = 0 ∧ x.vs = 0

theorem climb_within {P : ClimbParams} (hP : P.Valid) (hO : P.Ordered)
    (hX : P.hMach = crossoverAlt np P.vcas P.mach 0) {ss : List ClimbState}
    (h : Trace (climbBody P) climbInit ss) : ∀ x ∈ ss, ClimbEnv P x := by
  have hdt := hP.dt
  have hic := hO.ic
  have htr := hO.trop
  have hcs := hO.cas
  have hc := hO.vcas
  have hm := hO.mach
  have hm0 : 0 ≤ P.mach := le_trans (by norm_num) hm
  have hl := hO.lift
  have ht := hO.takeoff
  have ha := mul_pos hP.aTof hdt
  have h0 : 0 ≤ P.hMach := by linarith
  -- a speed below the constant CAS at sea level
  have slow : ∀ v, 0 ≤ v → 1.001 * v ≤ P.vcas → Within P.vcas P.mach v 0 := by
    intro v hv hle
    refine within_below hc hm (hX ▸ h0) (hX ▸ htr) hv (hX ▸ h0) ?_
    have := cas_le_tas hv le_rfl
    linarith
  have fast : ∀ h, 0 ≤ h → P.vTof ≤ cas2tas np P.vcas h 0 := by
    intro h hh
    have := cas_le_tas (cas2tas_spec P.vcas h 0).1 hh
    rw [tas2cas_cas2tas hc.le] at this
    linarith
  have fastM : ∀ h, P.vTof ≤ mach2tas np P.mach h 0 := by
    intro h
    have := vsound_lower h
    simp only [mach2tas]
    nlinarith
  refine trace_inv (Inv := ClimbEnv P) ?_ h
    ⟨climbInv_init hP, slow 0 le_rfl (by linarith), fun _ => ⟨rfl, rfl⟩⟩
  intro x hx _
  have hi := climbInv_step hP hx.inv
  have hv := hx.inv.v
  have hh : 0 ≤ x.h + x.vs * P.dt := by
    have := hi.h
    rwa [climb_h] at this
  refine ⟨hi, ?_, ?_⟩
  · unfold climbBody
    dsimp only
    rw [hX] at htr hcs hic h0
    split_ifs with c1 c2 c3 c4 c5 c6 c7 c8 <;> dsimp only
    · obtain ⟨e1, e2⟩ := hx.roll c1
      rw [e1, e2, zero_mul, add_zero]
      exact slow _ (by linarith) (by linarith)
    · exact within_cas hc hm h0 htr (by rw [ft_val] at c2; linarith)
    · exact within_below hc hm h0 htr (by linarith) (by rw [ft_val] at c2; linarith)
        (not_le.1 c3).le
    · exact within_cas hc hm h0 htr (by linarith)
    · exact within_below hc hm h0 htr (by linarith) (by linarith) (not_le.1 c5).le
    · exact within_cas hc hm h0 htr (by rw [← hX]; linarith)
    · exact within_mach hc hm h0 htr (by rw [← hX]; linarith)
    all_goals exact within_mach hc hm h0 htr (by rw [← hX]; linarith)
  · unfold climbBody
    dsimp only
    split_ifs with c1 c2 c3 c4 c5 c6 c7 c8 <;> dsimp only <;> intro hlt
    · obtain ⟨e1, e2⟩ := hx.roll c1
      rw [e1, e2]; simp
    all_goals first
      | exact absurd hlt (not_lt.2 (fast _ hh))
      | exact absurd hlt (not_lt.2 (fastM _))
      | linarith

/-- Invariant of the descent loop. -/
structure DescentEnv (P : DescentParams) (x : Row) : Prop where
  inv : DescentInv P x
  v : 0 ≤ x.v
  within : Within P.vcas P.mach x.v x.h
  rate : -x.vs * P.mach ≤ 7.4 ∨ (x.h ≤ P.hMach ∧ -x.vs * P.mach ≤ 10.5)
  level : P.withcr = true → x.t < 60 → x.h = P.hCr ∧ x.vs = 0

theorem descent_within {P : DescentParams} (hP : P.Valid) (hO : P.Ordered)
    (hX : P.hMach = crossoverAlt np P.vcas P.mach 0) {ss : List Row}
    (h : Trace (descentBody P) (descentInit P) ss) : ∀ x ∈ ss, DescentEnv P x := by
  have hdt := hP.dt
  have htr := hO.trop
  have hc := hO.vcas
  have hm := hO.mach
  have hm0 : 0 ≤ P.mach := le_trans (by norm_num) hm
  have hst := hO.start
  have hap := hO.approach
  have hva : 0 < P.vApp := by linarith [hO.dt]
  have h0 := hP.hMach
  have hX0 := hX ▸ h0
  have hXt := hX ▸ htr
  have hrm := hO.rateMach
  have hbr := hO.brakes
  refine trace_inv (Inv := DescentEnv P) ?_ h
    ⟨descentInv_init hP, mach2tas_nonneg hm0 _, within_mach hc hm hX0 hXt (hX ▸ hst),
      Or.inl (by simp only [descentInit]; norm_num), fun _ _ => ⟨rfl, rfl⟩⟩
  intro x hx hb
  obtain ⟨hi, hle⟩ := descentInv_step hP hx.inv
  have hv' := descent_v hP hm0 hO.dt hx.v hb
  have hvs := hx.inv.vs
  have hxh := hx.inv.h
  -- one step of slowing down
  have step : ∀ v' h', 0 ≤ v' → v' ≤ x.v - 0.2 * P.dt → h' ≤ x.h → x.h + x.vs * P.dt ≤ h' →
      Within P.vcas P.mach v' h' := by
    intro v' h' a1 a2 a3 a4
    refine ⟨le_trans ?_ hx.within.1, mach_step (by linarith) hx.v a3 hx.within.2⟩
    rcases hx.rate with r | ⟨r0, r⟩
    · exact slow_step' hdt.le a1 a2 a3 (w := -x.vs) (by linarith) hxh (by linarith) hx.within.2 r
    · exact slow_step hdt.le a1 a2 a3 (w := -x.vs) (by linarith) (by linarith) (by linarith)
        hx.within.2 r
  refine ⟨hi, hv', ?_, ?_, ?_⟩
  · revert hb hv' hle
    unfold descentBody
    dsimp only
    split_ifs with c1 c2 c3 c4 c5 c6 <;> dsimp only <;> intro hb hle hv'
    · obtain ⟨e1, e2⟩ := hx.level c1.2 (by linarith [c1.1])
      rw [e1, e2, zero_mul, add_zero]
      exact within_mach hc hm hX0 hXt (hX ▸ hst)
    · exact within_mach hc hm hX0 hXt (hX ▸ c2.le)
    · exact within_cas hc hm hX0 hXt (hX ▸ not_lt.1 c2)
    · refine within_below hc hm hX0 hXt (cas2tas_spec _ _ 0).1 (hX ▸ not_lt.1 c2) ?_
      rw [tas2cas_cas2tas hva.le]
      linarith
    · exact step _ _ hv' (by linarith) hle le_rfl
    · refine within_below hc hm hX0 hXt hva.le (hX ▸ not_lt.1 c2) ?_
      have := cas_le_tas hva.le c6.le
      linarith
    · refine step _ _ hv' ?_ hle (not_lt.1 c6)
      nlinarith
  · unfold descentBody
    dsimp only
    split_ifs with c1 c2 c3 c4 c5 c6 <;> dsimp only
    · left; norm_num
    · left; exact hrm
    · right; exact ⟨not_lt.1 c2, hO.rateCas⟩
    · right; exact ⟨not_lt.1 c2, hO.ratePost⟩
    · right; exact ⟨not_lt.1 c2, hO.ratePost⟩
    · right; exact ⟨not_lt.1 c2, hO.rateFa⟩
    · left; norm_num
  · intro w1 w2
    rw [descent_t] at w2
    obtain ⟨e1, e2⟩ := hx.level w1 (by linarith)
    unfold descentBody
    dsimp only
    rw [if_pos ⟨w2, w1⟩]
    dsimp only
    rw [e1, e2]
    simp

end Verif.Gen
