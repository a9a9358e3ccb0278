import Verif.Lemmas.GenDescent

/-!
# From loops to frames
-/

namespace Verif.Gen
open Verif Verif.Aero Verif.Tables

section
variable {G : Type} {R : Rng G}

theorem climbReturns_iff {f f' : FlightGen G} {kw : Kw} {fr : ClimbFrame} :
    ClimbReturns R f kw fr f' ↔ ∃ P g ss, climbSetup R f kw = .ok (P, g) ∧
      Trace (climbBody P) climbInit ss ∧
      fr = { rows := (addNoise R { f with rng := g } (ss.map ClimbState.toRow)).1.map derive,
             params := P } ∧
      f' = { f with rng := (addNoise R { f with rng := g } (ss.map ClimbState.toRow)).2 } := by
  unfold ClimbReturns climb
  rcases h : climbSetup R f kw with e | ⟨P, g⟩
  · simp
  · simp only [Option.map_eq_some_iff, Except.ok.injEq, Prod.mk.injEq]
    constructor
    · rintro ⟨n, rows, h1, h2, h3⟩
      obtain ⟨ss, h4, rfl⟩ := trace_of_loop h1
      exact ⟨P, g, ss, ⟨rfl, rfl⟩, h4, h2.symm, h3.symm⟩
    · rintro ⟨_, _, ss, ⟨rfl, rfl⟩, h4, h2, h3⟩
      exact ⟨_, _, loop_of_trace h4 _ le_rfl, h2.symm, h3.symm⟩

theorem descentReturns_iff {f f' : FlightGen G} {kw : Kw} {fr : DescentFrame} :
    DescentReturns R f kw fr f' ↔ ∃ P g ss, descentSetup R f kw = .ok (P, g) ∧
      Trace (descentBody P) (descentInit P) ss ∧
      fr = { rows := (addNoise R { f with rng := g } ss).1.map derive, params := P } ∧
      f' = { f with rng := (addNoise R { f with rng := g } ss).2 } := by
  unfold DescentReturns descent
  rcases h : descentSetup R f kw with e | ⟨P, g⟩
  · simp
  · simp only [Option.map_eq_some_iff, Except.ok.injEq, Prod.mk.injEq]
    constructor
    · rintro ⟨n, rows, h1, h2, h3⟩
      obtain ⟨ss, h4, rfl⟩ := trace_of_loop h1
      simp only [List.map_id_fun, id] at h2 h3
      exact ⟨P, g, ss, ⟨rfl, rfl⟩, h4, h2.symm, h3.symm⟩
    · rintro ⟨_, _, ss, ⟨rfl, rfl⟩, h4, h2, h3⟩
      refine ⟨_, _, loop_of_trace h4 _ le_rfl, ?_, ?_⟩
      · simpa using h2.symm
      · simpa using h3.symm

theorem cruiseReturns_iff {f f' : FlightGen G} {kw : Kw} {fr : CruiseFrame} :
    CruiseReturns R f kw fr f' ↔ ∃ P g ss, cruiseSetup R f kw = .ok (P, g) ∧
      Trace (cruiseBody P) (cruiseInit P) ss ∧
      fr = { rows := (addNoise R { f with rng := g } ss).1.map derive, params := P } ∧
      f' = { f with rng := (addNoise R { f with rng := g } ss).2 } := by
  unfold CruiseReturns cruise
  rcases h : cruiseSetup R f kw with e | ⟨P, g⟩
  · simp
  · simp only [Option.map_eq_some_iff, Except.ok.injEq, Prod.mk.injEq]
    constructor
    · rintro ⟨n, rows, h1, h2, h3⟩
      obtain ⟨ss, h4, rfl⟩ := trace_of_loop h1
      simp only [List.map_id_fun, id] at h2 h3
      exact ⟨P, g, ss, ⟨rfl, rfl⟩, h4, h2.symm, h3.symm⟩
    · rintro ⟨_, _, ss, ⟨rfl, rfl⟩, h4, h2, h3⟩
      refine ⟨_, _, loop_of_trace h4 _ le_rfl, ?_, ?_⟩
      · simpa using h2.symm
      · simpa using h3.symm

theorem addNoise_off {f : FlightGen G} (h : f.noise = false) (g : G) (rows : List Row) :
    addNoise R { f with rng := g } rows = (rows, g) := by
  simp [addNoise, h]

theorem addNoise_length (f : FlightGen G) (rows : List Row) :
    (addNoise R f rows).1.length = rows.length := by
  unfold addNoise
  split_ifs
  · simp
  · rfl

theorem addNoise_t (f : FlightGen G) (rows : List Row) :
    (addNoise R f rows).1.map Row.t = rows.map Row.t := by
  unfold addNoise
  split_ifs
  · apply List.ext_getElem
    · simp
    · intro i h1 h2
      simp
  · rfl

theorem trace_time {σ : Type} {body : σ → σ × Bool} {t : σ → ℝ} {dt : ℝ}
    (hb : ∀ x, t (body x).1 = t x + dt) {x : σ} {ss : List σ} (h : Trace body x ss) :
    ∀ (i : ℕ) (hi : i < ss.length), t ss[i] = t x + i * dt := by
  induction h with
  | last =>
    intro i hi
    have : i = 0 := by simpa using hi
    subst this
    simp
  | @step s ss _ _ ih =>
    intro i hi
    cases i with
    | zero => simp
    | succ i =>
      have := ih i (by simpa using hi)
      simp only [List.getElem_cons_succ, this, hb]
      push_cast
      ring

/-- Time column of a frame. -/
theorem frame_time {σ : Type} {body : σ → σ × Bool} {row : σ → Row} {dt : ℝ}
    (hb : ∀ x, (row (body x).1).t = (row x).t + dt) {x : σ} {ss : List σ} (h : Trace body x ss)
    (h0 : (row x).t = 0) (f : FlightGen G) (i : ℕ)
    (hi : i < ((addNoise R f (ss.map row)).1.map derive).length) :
    (((addNoise R f (ss.map row)).1.map derive)[i]).t = i * dt := by
  have hi' : i < ss.length := by simpa [addNoise_length] using hi
  have h1 := trace_time (t := fun x => (row x).t) hb h i hi'
  simp only [h0, zero_add] at h1
  have h2 := congrArg (fun l => l[i]?) (addNoise_t (R := R) f (ss.map row))
  have h3 : i < (addNoise R f (ss.map row)).1.length := by simpa [addNoise_length] using hi'
  simp only [List.getElem?_map, List.getElem?_eq_getElem h3, List.getElem?_eq_getElem hi',
    Option.map_some, Option.some.injEq] at h2
  rw [List.getElem_map]
  exact h2.trans h1

theorem climbSetup_dt {f : FlightGen G} {kw : Kw} {P : ClimbParams} {g : G}
    (h : climbSetup R f kw = .ok (P, g)) : P.dt = kw.dt.getD 1 := by
  unfold climbSetup at h
  simp only [bind, Except.bind, pure, Except.pure] at h
  repeat' split at h
  all_goals first
    | (cases h; done)
    | (cases h; rfl)

theorem descentSetup_dt {f : FlightGen G} {kw : Kw} {P : DescentParams} {g : G}
    (h : descentSetup R f kw = .ok (P, g)) : P.dt = kw.dt.getD 1 := by
  unfold descentSetup at h
  simp only [bind, Except.bind, pure, Except.pure] at h
  repeat' split at h
  all_goals first
    | (cases h; done)
    | (cases h; rfl)

theorem cruiseSetup_dt {f : FlightGen G} {kw : Kw} {P : CruiseParams} {g : G}
    (h : cruiseSetup R f kw = .ok (P, g)) : P.dt = kw.dt.getD 1 := by
  unfold cruiseSetup at h
  simp only [bind, Except.bind, pure, Except.pure] at h
  repeat' split at h
  all_goals first
    | (cases h; done)
    | (cases h; rfl)

end
end Verif.Gen
