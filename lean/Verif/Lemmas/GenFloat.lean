import Verif.Spec.GenFloat
import Verif.Lemmas.FloatStep
import Verif.Lemmas.GenDescent
import Verif.Props.Rounding

/-!
# The loops of the trajectory generator in double precision
-/

namespace Verif.GenLoop
open Verif Verif.Gen Verif.Aero

/-! ## At the reals these are the loops of `Model/Gen.lean` -/

/-- The recorded part of a state. -/
def State.row (x : State ℝ) : Row := ⟨x.t, x.h, x.s, x.v, x.vs, x.seg⟩

theorem climbPass_np (P : ClimbParams) (x : State ℝ) :
    let y := climbPass np (· < ·) ⟨P.dt, P.aTof, P.vTof, P.mach, P.vcas, P.hCr, P.vsIc, P.vsPre, P.vsCas,
      P.vsMach, P.hCas, P.hMach⟩ x
    let z := climbBody P { x.row with tcr := x.tcr }
    y.1.row = z.1.toRow ∧ y.1.tcr = z.1.tcr ∧ y.2 = z.2 := by
  have e0 : (0.0 : ℝ) = 0 := by norm_num
  have e60 : (60.0 : ℝ) = 60 := by norm_num
  have e15 : (1500.0 : ℝ) = 1500 := by norm_num
  unfold climbPass climbBody State.row
  simp only [e0, e60, e15, not_lt]
  have e : (x.tcr < 0 ∨ 0 < x.tcr) ↔ ¬ x.tcr = 0 := lt_or_lt_iff_ne
  split_ifs with h1 h2 h3 h4 h5 h6 h7 h8 h9 h10 <;> first
    | exact ⟨rfl, rfl, rfl⟩
    | (exfalso; simp_all)

theorem descentPass_np (P : DescentParams) (x : State ℝ) :
    let y := descentPass np (· < ·) ⟨P.dt, P.withcr, P.aLnd, P.vApp, P.mach, P.vcas, P.hCr, P.vsMach,
      P.vsCas, P.vsPost, P.vsFa, P.hCas, P.hMach⟩ x
    y.1.row = (descentBody P x.row).1 ∧ y.2 = (descentBody P x.row).2 := by
  have e0 : (0.0 : ℝ) = 0 := by norm_num
  have e60 : (60.0 : ℝ) = 60 := by norm_num
  have e15 : (1000.0 : ℝ) = 1000 := by norm_num
  unfold descentPass descentBody State.row
  simp only [e0, e60, e15]
  split_ifs <;> first
    | exact ⟨rfl, rfl⟩
    | exact ⟨rfl, by simp⟩

theorem cruisePass_np (P : CruiseParams) (x : State ℝ) :
    let y := cruisePass (· < ·) ⟨P.dt, P.distance, P.mach, P.hCr⟩ x
    y.1.row = (cruiseBody P x.row).1 ∧ y.2 = (cruiseBody P x.row).2 := ⟨rfl, rfl⟩

/-! ## Speeds -/

section
variable (M : Machine .binary64)

theorem zero64 : M.rnd 0.0 = 0 := by
  have := M.rnd_zero Format.binary64_wide
  norm_num at this ⊢
  exact this

theorem near_of_accurate {c got exact : ℝ} (h : Spec.Accurate .binary64 c got exact) (hc' : c ≤ 10 ^ 6)
    (h0 : 0 ≤ exact) : 0.9999 * exact ≤ got ∧ got ≤ 1.0001 * exact := by
  unfold Spec.Accurate at h
  rw [abs_of_nonneg h0] at h
  have hu := Format.u64_le
  have hu0 := Format.u_pos .binary64
  have : c * Format.binary64.u ≤ 0.0001 := by
    calc c * Format.binary64.u ≤ 10 ^ 6 * 1.2e-16 := mul_le_mul hc' hu hu0.le (by norm_num)
      _ ≤ _ := by norm_num
  have h2 := h.trans (mul_le_mul_of_nonneg_right this h0)
  obtain ⟨l, r⟩ := abs_le.1 h2
  constructor <;> linarith

theorem cas2tas_exact {c h : ℝ} (hc : 0 ≤ c) (h0 : 0 ≤ h) (h1 : h ≤ 15000) :
    0.99999 * c ≤ cas2tas np c h 0 ∧ cas2tas np c h 0 ≤ 3 * c := by
  have hw := (cas2tas_spec c h 0).1
  have e := (Props.C07_round_trips c h 0).2.2.2.2.1
  rw [abs_of_nonneg hc] at e
  obtain ⟨l, r, -⟩ := Props.C09_eas_le_cas_le_tas _ h hw h0
  rw [e] at l r
  constructor
  · linarith
  · have hd := (density_bounds (h := h) (by linarith) h1 0).1
    have h3 : (1 / 3 : ℝ) ≤ Real.sqrt (density np h 0 / 1.225) := by
      apply Real.le_sqrt_of_sq_le
      rw [le_div_iff₀ (by norm_num)]
      linarith
    have h4 : tas2eas np (cas2tas np c h 0) h 0 = cas2tas np c h 0 * Real.sqrt (density np h 0 / 1.225) :=
      rfl
    rw [h4] at l
    nlinarith

theorem cas2tas64 {c h : ℝ} (c1 : 30 ≤ c) (c2 : c ≤ 400) (h0 : 0 ≤ h) (h1 : h ≤ 15000) :
    0.9998 * c ≤ (cas2tas (flt M) ⟨c⟩ ⟨h⟩ 0.0).val ∧ (cas2tas (flt M) ⟨c⟩ ⟨h⟩ 0.0).val ≤ 3.01 * c := by
  have hd : (0.0 : Fl M) = ⟨0⟩ := by
    show Fl.mk (M.rnd 0.0) = _
    rw [zero64]
  rw [hd]
  have a := ((Props.C121_calibrated (M := M) Format.binary64_wide (h := h) (by linarith) h1 0).1 c c1 c2).1
  obtain ⟨l, r⟩ := cas2tas_exact (c := c) (by linarith) h0 h1
  have hp : 4.5e6 / c ^ 2 ≤ 5000 := by
    rw [div_le_iff₀ (by positivity)]
    nlinarith
  have hp' : 0 ≤ 4.5e6 / c ^ 2 := by positivity
  obtain ⟨l', r'⟩ := near_of_accurate a (by linarith) (by linarith)
  constructor <;> linarith

theorem mach2tas64 {m h : ℝ} (m1 : 0.1 ≤ m) (m2 : m ≤ 2) (hh : |h| ≤ 50000) :
    0.9999 * (295 * m) ≤ (mach2tas (flt M) ⟨m⟩ ⟨h⟩ 0.0).val ∧
      (mach2tas (flt M) ⟨m⟩ ⟨h⟩ 0.0).val ≤ 1100000 * m := by
  have hd : (0.0 : Fl M) = ⟨0⟩ := by
    show Fl.mk (M.rnd 0.0) = _
    rw [zero64]
  rw [hd]
  have a := (Props.C121_speeds (M := M) Format.binary64_wide (v := m) (h := h) (by linarith) (by linarith)
    hh 0).2.1
  have e : mach2tas np m h 0 = m * vsound np h 0 := rfl
  have l := vsound_lower h
  have r := (fl_vsound M Format.binary64_wide hh 0).mhi
  have r' : vsound np h 0 ≤ 1048576 := r.trans (by norm_num)
  obtain ⟨l', r'⟩ := near_of_accurate a (by norm_num) (by rw [e]; positivity)
  rw [e] at l' r'
  constructor <;> nlinarith

end

end Verif.GenLoop
