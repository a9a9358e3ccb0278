import Verif.Lemmas.Graph
import Verif.Model.DataRecords
import Verif.Model.Geo
import Verif.Props.Drag
import Verif.Props.Backends

/-!
# C122: calls with symbols
-/

namespace Verif.Props
open Verif Verif.Spec Verif.Graph Expr

/-- **C122** Atmosphere and airspeeds. -/
theorem C122_aero :
    Traceable (n := 2) (fun _ _ b _ a => Aero.temperature b (a 0) (a 1)) ∧
    Traceable (n := 2) (fun _ _ b _ a => Aero.pressure b (a 0) (a 1)) ∧
    Traceable (n := 2) (fun _ _ b _ a => Aero.density b (a 0) (a 1)) ∧
    Traceable (n := 2) (fun _ _ b _ a => Aero.vsound b (a 0) (a 1)) ∧
    Traceable (n := 2) (fun _ _ b _ a => Aero.hIsa b (a 0) (a 1)) ∧
    Traceable (n := 3) (fun _ _ b _ a => Aero.tas2mach b (a 0) (a 1) (a 2)) ∧
    Traceable (n := 3) (fun _ _ b _ a => Aero.mach2tas b (a 0) (a 1) (a 2)) ∧
    Traceable (n := 3) (fun _ _ b _ a => Aero.eas2tas b (a 0) (a 1) (a 2)) ∧
    Traceable (n := 3) (fun _ _ b _ a => Aero.tas2eas b (a 0) (a 1) (a 2)) ∧
    Traceable (n := 3) (fun _ _ b _ a => Aero.cas2tas b (a 0) (a 1) (a 2)) ∧
    Traceable (n := 3) (fun _ _ b _ a => Aero.tas2cas b (a 0) (a 1) (a 2)) ∧
    Traceable (n := 3) (fun _ _ b _ a => Aero.mach2cas b (a 0) (a 1) (a 2)) ∧
    Traceable (n := 3) (fun _ _ b _ a => Aero.cas2mach b (a 0) (a 1) (a 2)) ∧
    Traceable (n := 3) (fun _ _ b _ a => Aero.crossoverAlt b (a 0) (a 1) (a 2)) := by
  refine ⟨?_, ?_, ?_, ?_, ?_, ?_, ?_, ?_, ?_, ?_, ?_, ?_, ?_, ?_⟩ <;>
    exact traceable (fun _ _ _ _ _ _ _ => rfl) rfl

/-- **C122** Distance, bearing and destination. -/
theorem C122_geo :
    Traceable (n := 5) (fun _ _ b _ a => Geo.distance b (a 0) (a 1) (a 2) (a 3) (a 4)) ∧
    Traceable (n := 4) (fun _ _ b _ a => Geo.bearing b (a 0) (a 1) (a 2) (a 3)) ∧
    Traceable (n := 5) (fun _ _ b _ a => (Geo.latlon b (a 0) (a 1) (a 2) (a 3) (a 4)).1) ∧
    Traceable (n := 5) (fun _ _ b _ a => (Geo.latlon b (a 0) (a 1) (a 2) (a 3) (a 4)).2) := by
  refine ⟨?_, ?_, ?_, ?_⟩ <;> exact traceable (fun _ _ _ _ _ _ _ => rfl) rfl

/-- **C122** Drag, for every aircraft; wave drag, gear and the place of the engines are not symbols. -/
theorem C122_drag (ac : Drag.Airframe ℝ) (pol : Drag.Polar ℝ) (wave gear : Bool) :
    Traceable (n := 5) (fun _ _ b k a => Drag.clean b (Rec.airframe k ac) (Rec.polar k pol) wave
      (a 0) (a 1) (a 2) (a 3) (a 4)) ∧
    Traceable (n := 6) (fun _ _ b k a => Drag.nonclean b (Rec.airframe k ac) (Rec.polar k pol)
      (a 0) (a 1) (a 2) (a 3) (a 4) (a 5) gear) := by
  rcases ac with ⟨_, _, _, _ | _, _, r⟩ <;> cases wave <;> cases gear <;> cases r <;>
    exact ⟨traceable (fun _ _ _ _ _ _ _ => rfl) rfl, traceable (fun _ _ _ _ _ _ _ => rfl) rfl⟩

/-- **C122** Thrust. -/
theorem C122_thrust (e : Thrust.Params ℝ) :
    Traceable (n := 3) (fun _ _ b k a => Thrust.takeoff b (Rec.thrust k e) (a 0) (a 1) (a 2)) ∧
    Traceable (n := 4) (fun _ _ b k a => Thrust.climb b (Rec.thrust k e) (a 0) (a 1) (a 2) (a 3)) ∧
    Traceable (n := 3) (fun _ _ b k a => Thrust.cruise b (Rec.thrust k e) (a 0) (a 1) (a 2)) ∧
    Traceable (n := 3) (fun _ _ b k a => Thrust.descentIdle b (Rec.thrust k e) (a 0) (a 1) (a 2)) := by
  refine ⟨?_, ?_, ?_, ?_⟩ <;> exact traceable (fun _ _ _ _ _ _ _ => rfl) rfl

/-- **C122** Fuel flow. -/
theorem C122_fuel (p : Fuel.Params ℝ) (e : Thrust.Params ℝ) (ac : Drag.Airframe ℝ)
    (pol : Drag.Polar ℝ) (wave lim : Bool) :
    Traceable (n := 1) (fun _ _ b k a => Fuel.atThrust b (Rec.fuel k p) (a 0)) ∧
    Traceable (n := 3) (fun _ _ b k a => Fuel.takeoff b (Rec.fuel k p) (Rec.thrust k e)
      (a 0) (a 1) (a 2)) ∧
    Traceable (n := 6) (fun _ _ b k a => Fuel.enroute b (Rec.fuel k p) (Rec.airframe k ac)
      (Rec.polar k pol) wave (a 0) (a 1) (a 2) (a 3) (a 4) (a 5) lim) := by
  rcases ac with ⟨_, _, _, _ | _, _, r⟩ <;> cases wave <;> cases lim <;>
    refine ⟨?_, ?_, ?_⟩ <;> exact traceable (fun _ _ _ _ _ _ _ => rfl) rfl

/-- **C122** Emissions; the interpolation tables hold no symbols. -/
theorem C122_emission (e : Emission.Params ℝ) :
    Traceable (n := 1) (fun _ _ _ _ a => Emission.co2 (a 0)) ∧
    Traceable (n := 1) (fun _ _ _ _ a => Emission.h2o (a 0)) ∧
    Traceable (n := 1) (fun _ _ _ _ a => Emission.soot (a 0)) ∧
    Traceable (n := 1) (fun _ _ _ _ a => Emission.sox (a 0)) ∧
    Traceable (n := 4) (fun _ _ b k a => Emission.nox b (Rec.emission k e) (a 0) (a 1) (a 2) (a 3)) ∧
    Traceable (n := 4) (fun _ _ b k a => Emission.co b (Rec.emission k e) (a 0) (a 1) (a 2) (a 3)) ∧
    Traceable (n := 4) (fun _ _ b k a => Emission.hc b (Rec.emission k e) (a 0) (a 1) (a 2) (a 3)) := by
  refine ⟨?_, ?_, ?_, ?_, ?_, ?_, ?_⟩ <;> exact traceable (fun _ _ _ _ _ _ _ => rfl) rfl

/-- In user terms: the fuel flow of a climb with symbols for the mass `m`, the time step `dt` and the
rate of climb `vs`, at the mass left after a first step, as an optimiser builds it. Evaluated by CasADi
or by NumPy at numbers it is what direct calls give. -/
example (p : Fuel.Params ℝ) (ac : Drag.Airframe ℝ) (pol : Drag.Polar ℝ) (m dt vs : ℝ) (b : Backend ℝ) :
    let ff : (α : Type) → [Ops α] → Backend α → (ℝ → α) → α → α → α := fun _ _ b k m vs =>
      Fuel.enroute b (Rec.fuel k p) (Rec.airframe k ac) (Rec.polar k pol) true m 420.0 31000.0 vs 0.0 0.0 true
    (ff (Expr (Fin 3)) (graph _) num (var 0 - ff (Expr (Fin 3)) (graph _) num (var 0) (var 2) * var 1)
      (var 2)).run b id ![m, dt, vs] = ff ℝ b id (m - ff ℝ b id m vs * dt) vs := by
  intro ff
  have F := (C122_fuel p ⟨0, 0, 0, 0, 0, 0⟩ ac pol true true).2.2.1
  have h1 := F ℝ b id (Fin 3) ![m, dt, vs] ![var 0, 420.0, 31000.0, var 2, 0.0, 0.0]
  have h2 := F ℝ b id (Fin 3) ![m, dt, vs] ![var 0 - ff (Expr (Fin 3)) (graph _) num (var 0) (var 2) * var 1,
    420.0, 31000.0, var 2, 0.0, 0.0]
  refine h2.trans ?_
  change ff ℝ b id (m - (ff (Expr (Fin 3)) (graph _) num (var 0) (var 2)).run b id ![m, dt, vs] * dt) vs = _
  rw [show (ff (Expr (Fin 3)) (graph _) num (var 0) (var 2)).run b id ![m, dt, vs] = ff ℝ b id m vs from h1]

/-- The claim on tables is not empty: with a symbol in a table CasADi cannot build the graph. -/
example : ¬ Traceable (n := 2) (fun _ _ b _ a => b.interp (a 0) [0.0, a 1] [1.0, 2.0]) := by
  intro h
  have h := ((h.2 (Fin 2) id).1).2.1 (1 : Fin 2)
  exact Set.singleton_ne_empty (1 : Fin 2) h

end Verif.Props
