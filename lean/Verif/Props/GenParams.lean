import Verif.Spec.GenParams
import Verif.Props.GenRandom

/-!
# C114: the constants of a generated flight
-/

namespace Verif.Props
open Verif Verif.Gen Verif.Aero Verif.Tables Verif.Kinematic Verif.Registry
open Verif.Data (shipped)

variable {G : Type} {R : Rng G}

theorem getVar_entry {w : List WrapRow} {v : Str} {r : WrapRow} {name : String}
    (h : getVar w v = .ok r) (hv : v = name.toList.map Char.toNat) : Entry w name r := by
  unfold getVar at h
  split at h
  · next q hq =>
    cases h
    rw [List.find?_eq_some_iff_append] at hq
    obtain ⟨h1, a, b, h2, h3⟩ := hq
    refine ⟨a, b, h2, ?_, ?_⟩
    · rw [← hv]; exact eq_of_beq h1
    · intro q hq e
      have := h3 q hq
      rw [← hv] at e
      simp [e] at this
  · cases h

theorem value_opt {w : List WrapRow} {v : Str} {r : WrapRow} {name : String}
    (h : getVar w v = .ok r) (hv : v = name.toList.map Char.toNat) :
    Value w name none (wreal r.opt) :=
  ⟨r, getVar_entry h hv, fun _ => by unfold wreal; norm_num, fun a e => by cases e⟩

theorem value_draw {w : List WrapRow} {v : Str} {r : WrapRow} {name : String}
    (h : getVar w v = .ok r) (hv : v = name.toList.map Char.toNat) (g : G) :
    Value w name (some (R.unit g).1) (uniform R g r.min r.max).1 := by
  refine ⟨r, getVar_entry h hv, fun e => (by cases e), fun a e => ?_⟩
  cases e
  unfold uniform wreal
  norm_num

theorem chosen_getD (o : Option ℝ) (d : ℝ) : Chosen o d (o.getD d) :=
  ⟨fun a e => by rw [e]; rfl, fun e => by rw [e]; rfl⟩

theorem nearest_round (a : ℝ) : NearestHundred a (roundHundreds a) := by
  refine ⟨round_multiple a, round_near a, ?_⟩
  unfold roundHundreds
  simp only
  have h1 := Int.floor_le (a / 100)
  have h2 := Int.lt_floor_add_one (a / 100)
  have e : a = 100 * (a / 100) := by ring
  generalize a / 100 = y at *
  subst e
  intro h
  rw [abs_eq (by norm_num)] at h
  split_ifs at h ⊢ with c1 c2 c3
  · rcases h with h | h <;> linarith
  · rcases h with h | h <;> linarith
  · exact ⟨⌊y⌋ / 2, by
      have : ⌊y⌋ = 2 * (⌊y⌋ / 2) := by omega
      have : (⌊y⌋ : ℝ) = 2 * ((⌊y⌋ / 2 : ℤ) : ℝ) := by exact_mod_cast this
      rw [this]; ring⟩
  · exact ⟨(⌊y⌋ + 1) / 2, by
      have : ⌊y⌋ + 1 = 2 * ((⌊y⌋ + 1) / 2) := by omega
      have : (⌊y⌋ : ℝ) + 1 = 2 * (((⌊y⌋ + 1) / 2 : ℤ) : ℝ) := by exact_mod_cast this
      rw [this]; ring⟩

theorem random_iff (o : Option Bool) : o.getD false = true ↔ o = some true := by
  cases o with
  | none => simp
  | some b => simp

/-- The stream after a call: `k` draws with `random` on, none with it off. -/
theorem drawn_on {f : FlightGen G} {kw : Kw} (h : kw.random = some true) (k : ℕ) :
    drawn R f kw k = some (R.unit (after R f.rng k)).1 := by
  unfold drawn
  rw [if_pos h]

theorem drawn_off {f : FlightGen G} {kw : Kw} (h : kw.random ≠ some true) (k : ℕ) :
    drawn R f kw k = none := by
  unfold drawn
  rw [if_neg h]

theorem climb_constants {f : FlightGen G} {kw : Kw} {P : ClimbParams} {g : G}
    (h : climbSetup R f kw = .ok (P, g)) :
    ClimbConstants R f kw P ∧ g = after R f.rng (if kw.random = some true then 6 else 0) := by
  unfold climbSetup at h
  simp only [bind, Except.bind, pure, Except.pure] at h
  cases e1 : getVar f.wrap takeoffAcceleration with
  | error e => rw [e1] at h; cases h
  | ok aTof =>
  cases e2 : getVar f.wrap takeoffSpeed with
  | error e => rw [e1, e2] at h; cases h
  | ok vTof =>
  cases e3 : getVar f.wrap climbConstVcas with
  | error e => rw [e1, e2, e3] at h; cases h
  | ok wCas =>
  cases e4 : getVar f.wrap climbConstMach with
  | error e => rw [e1, e2, e3, e4] at h; cases h
  | ok wMach =>
  cases e5 : getVar f.wrap cruiseAlt with
  | error e => rw [e1, e2, e3, e4, e5] at h; cases h
  | ok wAlt =>
  cases e6 : getVar f.wrap climbVsPreConcas with
  | error e => rw [e1, e2, e3, e4, e5, e6] at h; cases h
  | ok wPre =>
  cases e7 : getVar f.wrap climbVsConcas with
  | error e => rw [e1, e2, e3, e4, e5, e6, e7] at h; cases h
  | ok wCon =>
  cases e8 : getVar f.wrap climbVsConmach with
  | error e => rw [e1, e2, e3, e4, e5, e6, e7, e8] at h; cases h
  | ok wCom =>
  cases e9 : getVar f.wrap initclimbVs with
  | error e => rw [e1, e2, e3, e4, e5, e6, e7, e8, e9] at h; cases h
  | ok wIc =>
  cases e10 : getVar f.wrap climbCrossAltConcas with
  | error e => rw [e1, e2, e3, e4, e5, e6, e7, e8, e9, e10] at h; cases h
  | ok wX =>
  rw [e1, e2, e3, e4, e5, e6, e7, e8, e9, e10] at h
  simp only at h
  by_cases hr : kw.random = some true
  · rw [if_pos ((random_iff _).2 hr)] at h
    rw [if_pos hr]
    cases h
    refine ⟨⟨chosen_getD _ _, value_opt e1 (by decide), value_opt e2 (by decide),
      value_opt e9 (by decide), ⟨_, value_opt e10 (by decide), rfl⟩,
      ⟨_, _, ?_, chosen_getD _ _, fun _ => rfl, fun h => absurd hr h⟩,
      ⟨_, ?_, chosen_getD _ _⟩,
      ⟨_, _, ?_, chosen_getD _ _, nearest_round _⟩, ?_, ?_, ?_, rfl, rfl, rfl⟩, rfl⟩
    all_goals rw [drawn_on hr]
    · exact value_draw e3 (by decide) f.rng
    · exact value_draw e4 (by decide) (after R f.rng 1)
    · exact value_draw e5 (by decide) (after R f.rng 2)
    · exact value_draw e6 (by decide) (after R f.rng 3)
    · exact value_draw e7 (by decide) (after R f.rng 4)
    · exact value_draw e8 (by decide) (after R f.rng 5)
  · rw [if_neg (fun c => hr ((random_iff _).1 c))] at h
    rw [if_neg hr]
    cases h
    refine ⟨⟨chosen_getD _ _, value_opt e1 (by decide), value_opt e2 (by decide),
      value_opt e9 (by decide), ⟨_, value_opt e10 (by decide), rfl⟩,
      ⟨_, _, ?_, chosen_getD _ _, fun h => absurd h hr, fun _ => rfl⟩,
      ⟨_, ?_, chosen_getD _ _⟩,
      ⟨_, _, ?_, chosen_getD _ _, nearest_round _⟩, ?_, ?_, ?_, rfl, rfl, rfl⟩, rfl⟩
    all_goals rw [drawn_off hr]
    · exact value_opt e3 (by decide)
    · exact value_opt e4 (by decide)
    · exact value_opt e5 (by decide)
    · exact value_opt e6 (by decide)
    · exact value_opt e7 (by decide)
    · exact value_opt e8 (by decide)

theorem withcr_iff (o : Option Bool) : o.getD true = false ↔ o = some false := by
  cases o with
  | none => simp
  | some b => simp

theorem descent_constants {f : FlightGen G} {kw : Kw} {P : DescentParams} {g : G}
    (h : descentSetup R f kw = .ok (P, g)) :
    DescentConstants R f kw P ∧ g = after R f.rng (if kw.random = some true then 6 else 0) := by
  unfold descentSetup at h
  simp only [bind, Except.bind, pure, Except.pure] at h
  cases e1 : getVar f.wrap landingAcceleration with
  | error e => rw [e1] at h; cases h
  | ok aLnd =>
  cases e2 : getVar f.wrap finalappVcas with
  | error e => rw [e1, e2] at h; cases h
  | ok vApp =>
  cases e3 : getVar f.wrap cruiseAlt with
  | error e => rw [e1, e2, e3] at h; cases h
  | ok wAlt =>
  cases e4 : getVar f.wrap descentConstMach with
  | error e => rw [e1, e2, e3, e4] at h; cases h
  | ok wMach =>
  cases e5 : getVar f.wrap descentConstVcas with
  | error e => rw [e1, e2, e3, e4, e5] at h; cases h
  | ok wCas =>
  cases e6 : getVar f.wrap descentVsConmach with
  | error e => rw [e1, e2, e3, e4, e5, e6] at h; cases h
  | ok wCom =>
  cases e7 : getVar f.wrap descentVsConcas with
  | error e => rw [e1, e2, e3, e4, e5, e6, e7] at h; cases h
  | ok wCon =>
  cases e8 : getVar f.wrap descentVsPostConcas with
  | error e => rw [e1, e2, e3, e4, e5, e6, e7, e8] at h; cases h
  | ok wPost =>
  cases e9 : getVar f.wrap finalappVs with
  | error e => rw [e1, e2, e3, e4, e5, e6, e7, e8, e9] at h; cases h
  | ok wFa =>
  cases e10 : getVar f.wrap descentCrossAltConcas with
  | error e => rw [e1, e2, e3, e4, e5, e6, e7, e8, e9, e10] at h; cases h
  | ok wX =>
  rw [e1, e2, e3, e4, e5, e6, e7, e8, e9, e10] at h
  simp only at h
  by_cases hr : kw.random = some true
  · rw [if_pos ((random_iff _).2 hr)] at h
    rw [if_pos hr]
    cases h
    refine ⟨⟨chosen_getD _ _, withcr_iff _, value_opt e1 (by decide), value_opt e2 (by decide),
      value_opt e9 (by decide), ⟨_, value_opt e10 (by decide), rfl⟩,
      ⟨_, _, ?_, chosen_getD _ _, nearest_round _⟩,
      ⟨_, ?_, chosen_getD _ _⟩, ⟨_, ?_, chosen_getD _ _⟩, ?_, ?_, ?_, rfl, rfl, rfl⟩, rfl⟩
    all_goals rw [drawn_on hr]
    · exact value_draw e3 (by decide) f.rng
    · exact value_draw e4 (by decide) (after R f.rng 1)
    · exact value_draw e5 (by decide) (after R f.rng 2)
    · exact value_draw e6 (by decide) (after R f.rng 3)
    · exact value_draw e7 (by decide) (after R f.rng 4)
    · exact value_draw e8 (by decide) (after R f.rng 5)
  · rw [if_neg (fun c => hr ((random_iff _).1 c))] at h
    rw [if_neg hr]
    cases h
    refine ⟨⟨chosen_getD _ _, withcr_iff _, value_opt e1 (by decide), value_opt e2 (by decide),
      value_opt e9 (by decide), ⟨_, value_opt e10 (by decide), rfl⟩,
      ⟨_, _, ?_, chosen_getD _ _, nearest_round _⟩,
      ⟨_, ?_, chosen_getD _ _⟩, ⟨_, ?_, chosen_getD _ _⟩, ?_, ?_, ?_, rfl, rfl, rfl⟩, rfl⟩
    all_goals rw [drawn_off hr]
    · exact value_opt e3 (by decide)
    · exact value_opt e4 (by decide)
    · exact value_opt e5 (by decide)
    · exact value_opt e6 (by decide)
    · exact value_opt e7 (by decide)
    · exact value_opt e8 (by decide)

theorem cruise_constants {f : FlightGen G} {kw : Kw} {P : CruiseParams} {g : G}
    (h : cruiseSetup R f kw = .ok (P, g)) :
    CruiseConstants R f kw P ∧ g = after R f.rng (if kw.random = some true then 3 else 0) := by
  unfold cruiseSetup at h
  simp only [bind, Except.bind, pure, Except.pure] at h
  cases e1 : getVar f.wrap cruiseRange with
  | error e => rw [e1] at h; cases h
  | ok wRange =>
  cases e2 : getVar f.wrap cruiseAlt with
  | error e => rw [e1, e2] at h; cases h
  | ok wAlt =>
  cases e3 : getVar f.wrap cruiseMach with
  | error e => rw [e1, e2, e3] at h; cases h
  | ok wMach =>
  rw [e1, e2, e3] at h
  simp only at h
  by_cases hr : kw.random = some true
  · rw [if_pos ((random_iff _).2 hr)] at h
    rw [if_pos hr]
    cases h
    refine ⟨⟨chosen_getD _ _, ⟨_, ?_, chosen_getD _ _⟩,
      ⟨_, _, ?_, chosen_getD _ _, nearest_round _⟩, ⟨_, ?_, chosen_getD _ _⟩, rfl⟩, rfl⟩
    all_goals rw [drawn_on hr]
    · exact value_draw e1 (by decide) f.rng
    · exact value_draw e2 (by decide) (after R f.rng 1)
    · exact value_draw e3 (by decide) (after R f.rng 2)
  · rw [if_neg (fun c => hr ((random_iff _).1 c))] at h
    rw [if_neg hr]
    cases h
    refine ⟨⟨chosen_getD _ _, ⟨_, ?_, chosen_getD _ _⟩,
      ⟨_, _, ?_, chosen_getD _ _, nearest_round _⟩, ⟨_, ?_, chosen_getD _ _⟩, rfl⟩, rfl⟩
    all_goals rw [drawn_off hr]
    · exact value_opt e1 (by decide)
    · exact value_opt e2 (by decide)
    · exact value_opt e3 (by decide)

theorem addNoise_off {f : FlightGen G} {g : G} {rows : List Row} (h : f.noise = false) :
    (addNoise R { f with rng := g } rows).2 = g := by
  unfold addNoise
  simp only [h, Bool.false_eq_true, if_false]

/-- **C114.** A climb that returns has the constants of `ClimbConstants`: each is the keyword
argument when given, otherwise the default of the named WRAP variable, or with `random` the point
of its range at the next draw. Without noise the call takes six draws with `random`, none
otherwise, whichever keywords are given. -/
theorem C114_climb {f f' : FlightGen G} {kw : Kw} {fr : ClimbFrame}
    (h : ClimbReturns R f kw fr f') :
    ClimbConstants R f kw fr.params ∧
    (f.noise = false → f'.rng = after R f.rng (if kw.random = some true then 6 else 0)) := by
  obtain ⟨n, h⟩ := h
  unfold climb at h
  split at h
  · cases h
  · next P g hs =>
    rw [Option.map_eq_some_iff] at h
    obtain ⟨rows, -, h⟩ := h
    cases h
    obtain ⟨h1, h2⟩ := climb_constants hs
    exact ⟨h1, fun hn => (addNoise_off hn).trans h2⟩

/-- **C114.** The same of a descent. -/
theorem C114_descent {f f' : FlightGen G} {kw : Kw} {fr : DescentFrame}
    (h : DescentReturns R f kw fr f') :
    DescentConstants R f kw fr.params ∧
    (f.noise = false → f'.rng = after R f.rng (if kw.random = some true then 6 else 0)) := by
  obtain ⟨n, h⟩ := h
  unfold descent at h
  split at h
  · cases h
  · next P g hs =>
    rw [Option.map_eq_some_iff] at h
    obtain ⟨rows, -, h⟩ := h
    cases h
    obtain ⟨h1, h2⟩ := descent_constants hs
    exact ⟨h1, fun hn => (addNoise_off hn).trans h2⟩

/-- **C114.** The same of a cruise, which takes three draws. -/
theorem C114_cruise {f f' : FlightGen G} {kw : Kw} {fr : CruiseFrame}
    (h : CruiseReturns R f kw fr f') :
    CruiseConstants R f kw fr.params ∧
    (f.noise = false → f'.rng = after R f.rng (if kw.random = some true then 3 else 0)) := by
  obtain ⟨n, h⟩ := h
  unfold cruise at h
  split at h
  · cases h
  · next P g hs =>
    rw [Option.map_eq_some_iff] at h
    obtain ⟨rows, -, h⟩ := h
    cases h
    obtain ⟨h1, h2⟩ := cruise_constants hs
    exact ⟨h1, fun hn => (addNoise_off hn).trans h2⟩

/-- A random climb of the shipped A320 asked to 35150 ft, halfway between two flight levels,
goes to 35200 ft. -/
example : ∃ (f f' : FlightGen Unit) (fr : ClimbFrame),
    ClimbReturns ⟨fun _ => (0, ()), fun n _ => (List.replicate n 1, ())⟩ f
      { random := some true, altCr := some 35150 } fr f' ∧ fr.params.alt = 35200 := by
  obtain ⟨f, -, h1, h2, -⟩ := init_shipped (ac := [97, 51, 50, 48]) (by decide +kernel) ()
  have hR : Rng.Unit (G := Unit) ⟨fun _ => (0, ()), fun n _ => (List.replicate n 1, ())⟩ :=
    fun _ => by simp
  obtain ⟨P, g, s1, v1, -⟩ := climbSetup_ok (kw := { random := some true, altCr := some 35150 })
    h1 hR (by simp) (by simp)
  obtain ⟨fr, f', hc⟩ := climbReturns_of s1 v1
  refine ⟨f, f', fr, hc, ?_⟩
  obtain ⟨x, a, -, ca, ⟨k, hk⟩, near, tie⟩ := (C114_climb hc).1.alt
  rw [ca.1 35150 rfl] at near tie
  rw [hk] at near tie ⊢
  rw [abs_le] at near
  have k1 : (351 : ℝ) ≤ k := by linarith
  have k2 : (k : ℝ) ≤ 352 := by linarith
  have k1' : 351 ≤ k := by exact_mod_cast k1
  have k2' : k ≤ 352 := by exact_mod_cast k2
  rcases (by omega : k = 351 ∨ k = 352) with rfl | rfl
  · obtain ⟨j, hj⟩ := tie (by norm_num)
    have : (351 : ℤ) = 2 * j := by
      have : ((351 : ℤ) : ℝ) = 2 * (j : ℝ) := by linarith
      exact_mod_cast this
    omega
  · norm_num

end Verif.Props
