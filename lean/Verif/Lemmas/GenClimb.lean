import Verif.Spec.Gen
import Verif.Lemmas.Airspeed
import Mathlib.Algebra.Order.Floor.Semiring
import Mathlib.Tactic.Linarith
import Mathlib.Tactic.Positivity
import Mathlib.Tactic.NormNum.OfScientific

/-!
# The climb loop
-/

namespace Verif.Gen
open Verif Verif.Aero

theorem ceil_drop {d x y : ℝ} (hd : 0 < d) (hx : 0 < x) (h : y ≤ x - d) :
    ⌈y / d⌉₊ < ⌈x / d⌉₊ := by
  rw [Nat.lt_ceil]
  have hxd : 0 < x / d := div_pos hx hd
  have hy : y / d ≤ x / d - 1 := by
    rw [div_le_iff₀ hd, sub_mul, div_mul_cancel₀ _ hd.ne']
    linarith
  rcases le_total 0 (y / d) with h0 | h0
  · have := Nat.ceil_lt_add_one h0
    linarith
  · rw [Nat.ceil_eq_zero.2 h0]
    simpa using hxd

theorem ceil_mono {d x y : ℝ} (hd : 0 < d) (h : y ≤ x) : ⌈y / d⌉₊ ≤ ⌈x / d⌉₊ :=
  Nat.ceil_mono (by gcongr)

theorem mach2tas_nonneg {m : ℝ} (hm : 0 ≤ m) (h : ℝ) : 0 ≤ mach2tas np m h 0 := by
  unfold mach2tas
  exact mul_nonneg hm (vsound_pos h 0).le

theorem cas2tas_nonneg (v h : ℝ) : 0 ≤ cas2tas np v h 0 := (cas2tas_spec v h 0).1

/-- Altitude at which the climb loop levels off. -/
noncomputable def ClimbParams.level (P : ClimbParams) : ℝ :=
  max (max P.hCr P.hMach) (max P.hCas (1500 * ft))

/-- Largest climb rate. -/
noncomputable def ClimbParams.vsMax (P : ClimbParams) : ℝ :=
  max (max P.vsIc P.vsPre) (max P.vsCas P.vsMach)

/-- Smallest climb rate. -/
noncomputable def ClimbParams.vsMin (P : ClimbParams) : ℝ :=
  min (min P.vsIc P.vsPre) (min P.vsCas P.vsMach)

theorem level_le {P : ClimbParams} {h : ℝ} : P.level ≤ h ↔
    P.hCr ≤ h ∧ P.hMach ≤ h ∧ P.hCas ≤ h ∧ 1500 * ft ≤ h := by
  unfold ClimbParams.level
  simp only [max_le_iff]
  tauto

theorem climb_t (P : ClimbParams) (x : ClimbState) : (climbBody P x).1.t = x.t + P.dt := by
  unfold climbBody; dsimp only; split_ifs <;> rfl

theorem climb_s (P : ClimbParams) (x : ClimbState) :
    (climbBody P x).1.s = x.s + x.v * P.dt := by
  unfold climbBody; dsimp only; split_ifs <;> rfl

theorem climb_h (P : ClimbParams) (x : ClimbState) :
    (climbBody P x).1.h = x.h + x.vs * P.dt := by
  unfold climbBody; dsimp only; split_ifs <;> rfl

/-- What one pass does to the remaining variables. -/
theorem climb_cases {P : ClimbParams} (hP : P.Valid) (x : ClimbState) (hv : 0 ≤ x.v) :
    (x.v < P.vTof ∧ (climbBody P x).1.v = x.v + P.aTof * P.dt ∧ (climbBody P x).1.vs = 0 ∧
      (climbBody P x).1.tcr = x.tcr ∧ (climbBody P x).2 = false) ∨
    (P.vTof ≤ x.v ∧ x.h + x.vs * P.dt < P.level ∧ 0 ≤ (climbBody P x).1.v ∧
      P.vsMin ≤ (climbBody P x).1.vs ∧ (climbBody P x).1.vs ≤ P.vsMax ∧
      (climbBody P x).1.tcr = x.tcr ∧ (climbBody P x).2 = false) ∨
    (P.vTof ≤ x.v ∧ P.level ≤ x.h + x.vs * P.dt ∧ 0 ≤ (climbBody P x).1.v ∧
      (climbBody P x).1.vs = 0 ∧
      (climbBody P x).1.tcr = (if x.tcr = 0 then x.t + P.dt else x.tcr) ∧
      (climbBody P x).2 = decide (60 < x.t + P.dt - (climbBody P x).1.tcr)) := by
  have hdt := hP.dt
  have hv5 : 0 ≤ x.v + 0.5 * P.dt := by positivity
  rw [level_le, ← not_le (a := P.level), level_le]
  unfold climbBody ClimbParams.vsMin ClimbParams.vsMax
  dsimp only
  split_ifs with h1 h2 h3 h4 h5 h6 h7 h8 h9
  all_goals first
    | exact .inl ⟨h1, rfl, rfl, rfl, rfl⟩
    | refine .inr (.inl ⟨not_lt.1 h1, ?_, ?_, by simp, by simp, rfl, rfl⟩)
      · rintro ⟨_, _, _, _⟩; linarith
      · first
        | exact cas2tas_nonneg _ _
        | exact mach2tas_nonneg hP.mach _
        | exact hv5
    | exact .inr (.inr ⟨not_lt.1 h1, ⟨by linarith, by linarith, by linarith, by linarith⟩,
        mach2tas_nonneg hP.mach _, rfl, rfl, rfl⟩)

theorem vsMin_pos {P : ClimbParams} (hP : P.Valid) : 0 < P.vsMin := by
  have := hP.vsIc; have := hP.vsPre; have := hP.vsCas; have := hP.vsMach
  unfold ClimbParams.vsMin
  simp [*]

theorem vsMin_le_vsMax (P : ClimbParams) : P.vsMin ≤ P.vsMax := by
  unfold ClimbParams.vsMin ClimbParams.vsMax
  simp

theorem level_pos (P : ClimbParams) : 0 < P.level := by
  have : (0:ℝ) < 1500 * ft := by unfold ft; norm_num
  unfold ClimbParams.level
  exact lt_max_of_lt_right (lt_max_of_lt_right this)

/-- Invariant of the climb loop. -/
structure ClimbInv (P : ClimbParams) (x : ClimbState) : Prop where
  t : 0 ≤ x.t
  v : 0 ≤ x.v
  h : 0 ≤ x.h
  tcr : 0 ≤ x.tcr
  tcr_le : x.tcr ≤ x.t
  vs : x.vs = 0 ∨ (P.vsMin ≤ x.vs ∧ x.vs ≤ P.vsMax ∧ x.h < P.level)
  top : x.h < P.level + P.vsMax * P.dt
  done : x.tcr ≠ 0 → P.level ≤ x.h ∧ x.vs = 0

theorem climbInv_init {P : ClimbParams} (hP : P.Valid) : ClimbInv P climbInit where
  t := le_rfl
  v := le_rfl
  h := le_rfl
  tcr := le_rfl
  tcr_le := le_rfl
  vs := .inl rfl
  top := by
    have := level_pos P
    have := mul_pos ((vsMin_pos hP).trans_le (vsMin_le_vsMax P)) hP.dt
    show (0:ℝ) < _
    linarith
  done h := absurd rfl h

theorem ClimbInv.vs_nonneg {P : ClimbParams} (hP : P.Valid) {x : ClimbState}
    (hx : ClimbInv P x) : 0 ≤ x.vs := by
  have := vsMin_pos hP
  rcases hx.vs with h | h
  · exact h.ge
  · linarith

theorem climbInv_step {P : ClimbParams} (hP : P.Valid) {x : ClimbState} (hx : ClimbInv P x) :
    ClimbInv P (climbBody P x).1 := by
  have hdt := hP.dt
  have ht := hx.t
  have hmin := vsMin_pos hP
  have hmax := vsMin_le_vsMax P
  have hvs := hx.vs_nonneg hP
  have hh : x.h ≤ x.h + x.vs * P.dt := by nlinarith
  have htop : x.h + x.vs * P.dt < P.level + P.vsMax * P.dt := by
    rcases hx.vs with h | ⟨_, h2, h3⟩
    · rw [h]; simpa using hx.top
    · nlinarith
  have hd := hx.done
  have htc := hx.tcr_le
  have htc0 := hx.tcr
  have ho := hx.h
  have hv0 := hx.v
  refine ⟨?_, ?_, ?_, ?_, ?_, ?_, ?_, ?_⟩
  · rw [climb_t]; linarith
  · rcases climb_cases hP x hx.v with c | c | c
    · rw [c.2.1]
      have := mul_pos hP.aTof hdt
      linarith
    · exact c.2.2.1
    · exact c.2.2.1
  · rw [climb_h]; linarith
  · rcases climb_cases hP x hx.v with c | c | c
    · rw [c.2.2.2.1]; exact htc0
    · rw [c.2.2.2.2.2.1]; exact htc0
    · rw [c.2.2.2.2.1]; split_ifs <;> linarith
  · rw [climb_t]
    rcases climb_cases hP x hx.v with c | c | c
    · rw [c.2.2.2.1]; linarith
    · rw [c.2.2.2.2.2.1]; linarith
    · rw [c.2.2.2.2.1]; split_ifs <;> linarith
  · rw [climb_h]
    rcases climb_cases hP x hx.v with c | c | c
    · exact .inl c.2.2.1
    · exact .inr ⟨c.2.2.2.1, c.2.2.2.2.1, c.2.1⟩
    · exact .inl c.2.2.2.1
  · rw [climb_h]; exact htop
  · rw [climb_h]
    rcases climb_cases hP x hx.v with c | c | c
    · rw [c.2.2.2.1]
      intro h
      exact ⟨(hd h).1.trans hh, c.2.2.1⟩
    · rw [c.2.2.2.2.2.1]
      intro h
      have := (hd h).1
      linarith [c.2.1]
    · intro _
      exact ⟨c.2.1, c.2.2.2.1⟩

/-- Passes left in the level segment. -/
noncomputable def climbLevelLeft (P : ClimbParams) (x : ClimbState) : ℕ :=
  if x.tcr = 0 then ⌈60 / P.dt⌉₊ + 2 else ⌈(60 + x.tcr - x.t) / P.dt⌉₊ + 1

/-- Measure of the climb loop. -/
noncomputable def climbMeasure (P : ClimbParams) (x : ClimbState) : ℕ × ℕ :=
  (⌈(P.level - (x.h + x.vs * P.dt)) / (P.vsMin * P.dt)⌉₊ + climbLevelLeft P x,
   ⌈(P.vTof - x.v) / (P.aTof * P.dt)⌉₊)

theorem levelLeft_le {P : ClimbParams} (hP : P.Valid) {x : ClimbState}
    (h : (climbBody P x).1.tcr = x.tcr) :
    climbLevelLeft P (climbBody P x).1 ≤ climbLevelLeft P x := by
  unfold climbLevelLeft
  rw [h, climb_t]
  split_ifs
  · exact le_rfl
  · have := hP.dt
    exact Nat.add_le_add_right (ceil_mono hP.dt (by linarith)) 1

theorem climb_decreases {P : ClimbParams} (hP : P.Valid) {x : ClimbState} (hx : ClimbInv P x)
    (hb : (climbBody P x).2 = false) :
    Prod.Lex (· < ·) (· < ·) (climbMeasure P (climbBody P x).1) (climbMeasure P x) := by
  have hdt := hP.dt
  have hmin := mul_pos (vsMin_pos hP) hdt
  unfold climbMeasure
  rw [climb_h]
  rcases climb_cases hP x hx.v with c | c | c
  · obtain ⟨c1, c2, c3, c4, -⟩ := c
    have hR := levelLeft_le hP c4
    rw [c2, c3]
    simp only [zero_mul, add_zero]
    have hB : ⌈(P.vTof - (x.v + P.aTof * P.dt)) / (P.aTof * P.dt)⌉₊ <
        ⌈(P.vTof - x.v) / (P.aTof * P.dt)⌉₊ :=
      ceil_drop (mul_pos hP.aTof hdt) (by linarith) (by linarith)
    rcases hR.lt_or_eq with h | h
    · exact .left _ _ (by omega)
    · rw [h]; exact .right _ hB
  · obtain ⟨-, c2, -, c4, -, c6, -⟩ := c
    have hR := levelLeft_le hP c6
    apply Prod.Lex.left
    have : ⌈(P.level - (x.h + x.vs * P.dt + (climbBody P x).1.vs * P.dt)) /
        (P.vsMin * P.dt)⌉₊ < ⌈(P.level - (x.h + x.vs * P.dt)) / (P.vsMin * P.dt)⌉₊ := by
      apply ceil_drop hmin (by linarith)
      nlinarith
    omega
  · obtain ⟨-, c2, -, c4, c5, c6⟩ := c
    apply Prod.Lex.left
    rw [c4]
    simp only [zero_mul, add_zero]
    apply Nat.add_lt_add_left
    rw [hb] at c6
    have c6 := of_decide_eq_false c6.symm
    rw [c5] at c6
    have ht := hx.t
    unfold climbLevelLeft
    rw [c5, climb_t]
    by_cases h0 : x.tcr = 0
    · simp only [h0, if_true]
      have : x.t + P.dt ≠ 0 := by linarith
      rw [if_neg this]
      have : 60 + (x.t + P.dt) - (x.t + P.dt) = 60 := by ring
      rw [this]
      omega
    · simp only [h0, if_false] at c6 ⊢
      apply Nat.add_lt_add_right
      exact ceil_drop hdt (by linarith) (by linarith)

/-- The climb loop ends. -/
theorem climb_terminates {P : ClimbParams} (hP : P.Valid) :
    ∃ ss, Trace (climbBody P) climbInit ss :=
  trace_exists (Prod.lex ⟨_, Nat.lt_wfRel.wf⟩ ⟨_, Nat.lt_wfRel.wf⟩).wf (climbMeasure P)
    (fun _ hx hb => ⟨climbInv_step hP hx, climb_decreases hP hx hb⟩) _ (climbInv_init hP)

/-- Altitude of the last row. -/
theorem climb_last {P : ClimbParams} (hP : P.Valid) {ss : List ClimbState}
    (h : Trace (climbBody P) climbInit ss) :
    ∃ x, ss.getLast? = some x ∧ P.level ≤ x.h ∧ x.h < P.level + P.vsMax * P.dt ∧ x.vs = 0 := by
  obtain ⟨x, hx, hb⟩ := trace_last h
  have hi := trace_inv (Inv := ClimbInv P) (fun _ h _ => climbInv_step hP h) h
    (climbInv_init hP) x (List.mem_of_getLast? hx)
  refine ⟨x, hx, ?_, hi.top, ?_⟩
  all_goals
    have : x.tcr ≠ 0 := by
      rcases climb_cases hP x hi.v with c | c | c
      · rw [c.2.2.2.2] at hb; cases hb
      · rw [c.2.2.2.2.2.2] at hb; cases hb
      · rw [c.2.2.2.2.2] at hb
        have hb := of_decide_eq_true hb
        rw [c.2.2.2.2.1] at hb
        intro h0
        rw [if_pos h0] at hb
        linarith
  · exact (hi.done this).1
  · exact (hi.done this).2

end Verif.Gen
