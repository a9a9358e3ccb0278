import Verif.Lemmas.GenDistance

/-!
# The level rows at the end of a generated climb
-/

namespace Verif.Gen
open Verif Verif.Aero Verif.Spec

/-- What follows a state of a trace is a trace. -/
theorem trace_from {σ : Type} {body : σ → σ × Bool} {s : σ} {ss : List σ} (h : Trace body s ss) :
    ∀ pre x post, ss = pre ++ x :: post → Trace body x (x :: post) := by
  induction h with
  | @last s hb =>
    intro pre x post e
    rcases pre with _ | ⟨y, pre⟩
    · cases e; exact .last hb
    · simp at e
  | @step s ss hb ht ih =>
    intro pre x post e
    rcases pre with _ | ⟨y, pre⟩
    · cases e; exact .step hb ht
    · simp only [List.cons_append, List.cons.injEq] at e
      exact ih pre x post e.2

/-- What the rows of a climb are before and after levelling off. -/
structure Levelling (P : ClimbParams) (x : ClimbState) : Prop where
  t : 0 ≤ x.t
  before : x.seg ≠ some .CR → x.tcr = 0
  level : x.seg = some .CR → x.vs = 0 ∧ x.v = mach2tas np P.mach x.h 0 ∧ 0 < x.tcr ∧
    1500 * ft ≤ x.h ∧ P.hCas ≤ x.h ∧ P.hMach ≤ x.h ∧ P.hCr ≤ x.h

/-- A pass from a level row. -/
theorem level_pass {P : ClimbParams} (hm : P.vTof ≤ 295 * P.mach) (h0 : 0 ≤ P.mach) {x : ClimbState}
    (hx : Levelling P x) (hl : x.seg = some .CR) :
    climbBody P x = (ClimbState.mk (Row.mk (x.t + P.dt) x.h (x.s + x.v * P.dt) x.v 0 (some .CR)) x.tcr,
      decide (60 < x.t + P.dt - x.tcr)) := by
  obtain ⟨h1, h2, h3, k1, k2, k3, k4⟩ := hx.level hl
  have c : ¬ x.v < P.vTof := by
    rw [h2]
    unfold mach2tas
    have := vsound_lower x.h
    nlinarith
  have e : x.h + x.vs * P.dt = x.h := by simp [h1]
  unfold climbBody
  dsimp only
  rw [if_neg c, e, if_neg (not_lt.2 k1), if_neg (not_lt.2 k2), if_neg (not_lt.2 k3), if_neg (not_lt.2 k4),
    if_neg h3.ne', ← h2]

theorem levelling_step {P : ClimbParams} (hd : 0 < P.dt) (hm : P.vTof ≤ 295 * P.mach) (h0 : 0 ≤ P.mach)
    {x : ClimbState} (hx : Levelling P x) : Levelling P (climbBody P x).1 := by
  by_cases hl : x.seg = some .CR
  · rw [level_pass hm h0 hx hl]
    obtain ⟨h1, h2, h3, k⟩ := hx.level hl
    exact ⟨by linarith [hx.t], fun i => absurd rfl i, fun _ => ⟨rfl, h2, h3, k⟩⟩
  · have t0 : 0 < x.t + P.dt := by linarith [hx.t]
    have z := hx.before hl
    unfold climbBody
    dsimp only
    split_ifs with c1 c2 c3 c4 c5 c6 c7
    all_goals first
      | exact ⟨t0.le, fun _ => z, fun i => by simp at i⟩
      | exact ⟨t0.le, fun i => absurd rfl i, fun _ =>
          ⟨rfl, rfl, t0, not_lt.1 (by assumption), not_lt.1 (by assumption), not_lt.1 (by assumption),
            not_lt.1 (by assumption)⟩⟩

/-- The level rows. -/
theorem level_rows {P : ClimbParams} (hd : 0 < P.dt) (hm : P.vTof ≤ 295 * P.mach) (h0 : 0 ≤ P.mach)
    {s : ClimbState} {ss : List ClimbState} (h : Trace (climbBody P) s ss) (hx : Levelling P s)
    (hl : s.seg = some .CR) (h60 : s.t - s.tcr ≤ 60) :
    (∀ x ∈ ss, x.seg = some .CR ∧ x.h = s.h ∧ x.v = s.v ∧ x.s = s.s + s.v * (x.t - s.t) ∧
      x.t - s.tcr ≤ 60) ∧
    ∃ x, ss.getLast? = some x ∧ 60 - P.dt < x.t - s.tcr := by
  induction h with
  | @last s hb =>
    refine ⟨?_, s, rfl, ?_⟩
    · intro x h
      obtain rfl := List.mem_singleton.1 h
      exact ⟨hl, rfl, rfl, by simp, h60⟩
    · rw [level_pass hm h0 hx hl] at hb
      simp only [decide_eq_true_eq] at hb
      linarith
  | @step s ss hb ht ih =>
    have nx := levelling_step hd hm h0 hx
    rw [level_pass hm h0 hx hl] at nx ih hb
    simp only [decide_eq_false_iff_not, not_lt] at hb
    obtain ⟨i1, x, i2, i3⟩ := ih nx rfl hb
    refine ⟨?_, x, ?_, i3⟩
    · intro y hy
      rcases List.mem_cons.1 hy with rfl | hy
      · exact ⟨hl, rfl, rfl, by simp, h60⟩
      · obtain ⟨j1, j2, j3, j4, j5⟩ := i1 y hy
        refine ⟨j1, j2, j3, ?_, j5⟩
        rw [j4]
        ring
    · cases ss with
      | nil => simp at i2
      | cons a l => rw [List.getLast?_cons_cons]; exact i2

end Verif.Gen
