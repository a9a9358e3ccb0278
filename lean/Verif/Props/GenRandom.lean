import Verif.Props.Gen
import Verif.Lemmas.GenComplete

/-!
# C57: the random stream of the generator
-/

namespace Verif.Props
open Verif Verif.Gen Verif.Aero Verif.Tables Verif.Kinematic Verif.Registry
open Verif.Data (shipped)

variable {G : Type} {R : Rng G}

/-- A call of one of the four generating methods. -/
inductive Call
  | climb (kw : Kw)
  | descent (kw : Kw)
  | cruise (kw : Kw)
  | complete (kw : Kw)

/-- Its keyword arguments. -/
def Call.kw : Call → Kw
  | .climb kw | .descent kw | .cruise kw | .complete kw => kw

/-- Number of uniform draws of a random call. -/
def Call.draws : Call → ℕ
  | .climb _ => 6
  | .descent _ => 6
  | .cruise _ => 3
  | .complete _ => 15

/-- The call returns and leaves the generator as `f'`. -/
def Effect (R : Rng G) (f : FlightGen G) (c : Call) (f' : FlightGen G) : Prop :=
  match c with
  | .climb kw => ∃ fr, ClimbReturns R f kw fr f'
  | .descent kw => ∃ fr, DescentReturns R f kw fr f'
  | .cruise kw => ∃ fr, CruiseReturns R f kw fr f'
  | .complete kw => ∃ rows, CompleteReturns R f kw rows f'

/-- A history of returning calls. -/
inductive History (R : Rng G) : FlightGen G → List Call → FlightGen G → Prop
  | nil (f) : History R f [] f
  | cons {f f1 f2 c cs} : Effect R f c f1 → History R f1 cs f2 → History R f (c :: cs) f2

theorem climbSetup_rng {f : FlightGen G} {kw : Kw} {P : ClimbParams} {g : G}
    (h : climbSetup R f kw = .ok (P, g)) :
    g = if kw.random.getD false then (fun g => (R.unit g).2)^[6] f.rng else f.rng := by
  unfold climbSetup at h
  simp only [bind, Except.bind, pure, Except.pure] at h
  repeat' split at h
  all_goals first
    | (cases h; done)
    | (next hr => cases h; rw [if_pos hr]; rfl)
    | (next hr => cases h; rw [if_neg hr])

theorem descentSetup_rng {f : FlightGen G} {kw : Kw} {P : DescentParams} {g : G}
    (h : descentSetup R f kw = .ok (P, g)) :
    g = if kw.random.getD false then (fun g => (R.unit g).2)^[6] f.rng else f.rng := by
  unfold descentSetup at h
  simp only [bind, Except.bind, pure, Except.pure] at h
  repeat' split at h
  all_goals first
    | (cases h; done)
    | (next hr => cases h; rw [if_pos hr]; rfl)
    | (next hr => cases h; rw [if_neg hr])

theorem cruiseSetup_rng {f : FlightGen G} {kw : Kw} {P : CruiseParams} {g : G}
    (h : cruiseSetup R f kw = .ok (P, g)) :
    g = if kw.random.getD false then (fun g => (R.unit g).2)^[3] f.rng else f.rng := by
  unfold cruiseSetup at h
  simp only [bind, Except.bind, pure, Except.pure] at h
  repeat' split at h
  all_goals first
    | (cases h; done)
    | (next hr => cases h; rw [if_pos hr]; rfl)
    | (next hr => cases h; rw [if_neg hr])

theorem passAlt_random (kw : Kw) (a : ℝ) : (passAlt kw a).random = kw.random := by
  unfold passAlt; split_ifs <;> rfl

/-- **C57, draws.** Without noise, a call with `random=True` advances the stream by a number of
draws that depends on the method only, whichever parameters are overridden, and a call without it
by none; nothing else in the generator changes. -/
theorem C57_draws (f f' : FlightGen G) (c : Call) (hn : f.noise = false)
    (h : Effect R f c f') :
    f' = { f with rng :=
      if c.kw.random.getD false then (fun g => (R.unit g).2)^[c.draws] f.rng else f.rng } := by
  have cl : ∀ {f f' : FlightGen G} {kw fr}, f.noise = false → ClimbReturns R f kw fr f' →
      f' = { f with rng :=
        if kw.random.getD false then (fun g => (R.unit g).2)^[6] f.rng else f.rng } := by
    intro f f' kw fr hn h
    obtain ⟨P, g, ss, h1, h2, -, rfl⟩ := climbReturns_iff.1 h
    rw [addNoise_off hn, climbSetup_rng h1]
  have de : ∀ {f f' : FlightGen G} {kw fr}, f.noise = false → DescentReturns R f kw fr f' →
      f' = { f with rng :=
        if kw.random.getD false then (fun g => (R.unit g).2)^[6] f.rng else f.rng } := by
    intro f f' kw fr hn h
    obtain ⟨P, g, ss, h1, h2, -, rfl⟩ := descentReturns_iff.1 h
    rw [addNoise_off hn, descentSetup_rng h1]
  have cr : ∀ {f f' : FlightGen G} {kw fr}, f.noise = false → CruiseReturns R f kw fr f' →
      f' = { f with rng :=
        if kw.random.getD false then (fun g => (R.unit g).2)^[3] f.rng else f.rng } := by
    intro f f' kw fr hn h
    obtain ⟨P, g, ss, h1, h2, -, rfl⟩ := cruiseReturns_iff.1 h
    rw [addNoise_off hn, cruiseSetup_rng h1]
  cases c with
  | climb kw => obtain ⟨fr, h⟩ := h; exact cl hn h
  | descent kw => obtain ⟨fr, h⟩ := h; exact de hn h
  | cruise kw => obtain ⟨fr, h⟩ := h; exact cr hn h
  | complete kw =>
    obtain ⟨rows, h⟩ := h
    obtain ⟨-, -, x1, f1, x2, f2, x3, h1, h2, h3, -⟩ := completeReturns_iff.1 h
    have e1 := cr hn h1
    have e2 := cl (by rw [e1]; exact hn) h2
    have e3 := de (by rw [e2, e1]; exact hn) h3
    rw [e3, e2, e1]
    simp only [passAlt_random]
    by_cases hr : kw.random.getD false = true
    · simp only [Call.kw, Call.draws, hr, if_true]
      rw [← Function.iterate_add_apply, ← Function.iterate_add_apply]
    · simp only [Call.kw, hr, if_false]
      rfl

/-- **C57.** Removing from a history any block of calls made without `random=True`, noise being
disabled, does not change the generator the history ends with; hence it does not change any
later result. -/
theorem C57_quiet_calls (f f' : FlightGen G) (before quiet after : List Call)
    (hn : f.noise = false) (hq : ∀ c ∈ quiet, c.kw.random.getD false = false)
    (h : History R f (before ++ quiet ++ after) f') : History R f (before ++ after) f' := by
  induction before generalizing f with
  | nil =>
    induction quiet with
    | nil => exact h
    | cons c cs ih =>
      cases h with
      | cons h1 h2 =>
        have := C57_draws _ _ _ hn h1
        rw [if_neg (by rw [hq c (by simp)]; simp)] at this
        subst this
        exact ih (fun c hc => hq c (by simp [hc])) h2
  | cons c cs ih =>
    cases h with
    | cons h1 h2 =>
      refine .cons h1 (ih _ ?_ h2)
      rw [C57_draws _ _ _ hn h1]
      exact hn

/-- **C57, noise.** With noise enabled a returning climb, descent or cruise of `n` rows draws
four batches of `n` normals after its uniform draws. -/
theorem C57_noise_draws (f f' : FlightGen G) (kw : Kw) (hn : f.noise = true) :
    (∀ fr, ClimbReturns R f kw fr f' → f'.rng = (fun g => (R.gauss fr.rows.length g).2)^[4]
      (if kw.random.getD false then (fun g => (R.unit g).2)^[6] f.rng else f.rng)) ∧
    (∀ fr, DescentReturns R f kw fr f' → f'.rng = (fun g => (R.gauss fr.rows.length g).2)^[4]
      (if kw.random.getD false then (fun g => (R.unit g).2)^[6] f.rng else f.rng)) ∧
    (∀ fr, CruiseReturns R f kw fr f' → f'.rng = (fun g => (R.gauss fr.rows.length g).2)^[4]
      (if kw.random.getD false then (fun g => (R.unit g).2)^[3] f.rng else f.rng)) := by
  have key : ∀ (g : G) (rows : List Row), (addNoise R { f with rng := g } rows).2 =
      (fun y => (R.gauss ((addNoise R { f with rng := g } rows).1.map derive).length y).2)^[4]
        g := by
    intro g rows
    rw [List.length_map, addNoise_length]
    unfold addNoise
    simp only [hn, if_true]
    rfl
  refine ⟨?_, ?_, ?_⟩
  · intro fr h
    obtain ⟨P, g, ss, h1, h2, rfl, rfl⟩ := climbReturns_iff.1 h
    rw [← climbSetup_rng h1]
    exact key _ _
  · intro fr h
    obtain ⟨P, g, ss, h1, h2, rfl, rfl⟩ := descentReturns_iff.1 h
    rw [← descentSetup_rng h1]
    exact key _ _
  · intro fr h
    obtain ⟨P, g, ss, h1, h2, rfl, rfl⟩ := cruiseReturns_iff.1 h
    rw [← cruiseSetup_rng h1]
    exact key _ _

/-- A history exists: three climbs with the default A320, the second at a given altitude. -/
example : ∃ f f' : FlightGen Unit, Gen.init shipped [97, 51, 50, 48] () true = .ok f ∧
    History ⟨fun _ => (0, ()), fun _ _ => ([], ())⟩ f
      [.climb {}, .climb { altCr := some 20000 }, .climb { random := some true }] f' := by
  obtain ⟨f, h1, h2⟩ := C50_climb_shipped (R := ⟨fun _ => (0, ()), fun _ _ => ([], ())⟩)
    [97, 51, 50, 48] (by decide +kernel) () (fun _ => by simp)
  have call : ∀ kw : Kw, kw.dt = none → kw.machCl = none → ∃ f', Effect
      ⟨fun _ => (0, ()), fun _ _ => ([], ())⟩ f (.climb kw) f' := by
    intro kw a b
    obtain ⟨fr, f', h⟩ := h2 f (.inl rfl) f.rng kw (by simp [a]) (by simp [b])
    exact ⟨f', fr, h⟩
  have stay : ∀ kw f', Effect ⟨fun _ => (0, ()), fun _ _ => ([], ())⟩ f (.climb kw) f' →
      f' = f := by
    intro kw f' h
    have hn : f.noise = false := by
      obtain ⟨f0, k1, -, k2, -⟩ := init_shipped (ac := [97, 51, 50, 48]) (by decide +kernel) ()
      rw [h1] at k1
      cases k1
      exact k2
    exact C57_draws f f' _ hn h
  obtain ⟨f1, e1⟩ := call {} rfl rfl
  obtain ⟨f2, e2⟩ := call { altCr := some 20000 } rfl rfl
  obtain ⟨f3, e3⟩ := call { random := some true } rfl rfl
  have s1 := stay _ _ e1
  have s2 := stay _ _ e2
  have s3 := stay _ _ e3
  subst s1 s2 s3
  exact ⟨_, _, h1, .cons e1 (.cons e2 (.cons e3 (.nil _)))⟩

end Verif.Props
