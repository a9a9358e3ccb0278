import Verif.Lemmas.Backends
import Verif.Spec.Backends

/-!
# C19, C21: backends and arrays
-/

namespace Verif.Props
open Verif.Spec

/-- **C19.** On real inputs every aero, geo, drag, thrust and fuel function gives the same
value under the NumPy, JAX and CasADi backends, for every aircraft and engine record. -/
theorem C19_backends_agree :
    Agree (fun b => Aero.atmos b) ∧ Agree (fun b => Aero.temperature b) ∧
    Agree (fun b => Aero.pressure b) ∧ Agree (fun b => Aero.density b) ∧
    Agree (fun b => Aero.vsound b) ∧ Agree (fun b => Aero.hIsa b) ∧
    Agree (fun b => Aero.tas2mach b) ∧ Agree (fun b => Aero.mach2tas b) ∧
    Agree (fun b => Aero.eas2tas b) ∧ Agree (fun b => Aero.tas2eas b) ∧
    Agree (fun b => Aero.cas2tas b) ∧ Agree (fun b => Aero.tas2cas b) ∧
    Agree (fun b => Aero.mach2cas b) ∧ Agree (fun b => Aero.cas2mach b) ∧
    Agree (fun b => Aero.crossoverAlt b) ∧
    Agree (fun b => Geo.distance b) ∧ Agree (fun b => Geo.bearing b) ∧
    Agree (fun b => Geo.latlon b) ∧ Agree (fun b => Geo.solarZenith b) ∧
    Agree (fun b => Drag.clean b) ∧ Agree (fun b => Drag.nonclean b) ∧
    Agree (fun b => Thrust.takeoff b) ∧ Agree (fun b => Thrust.climb b) ∧
    Agree (fun b => Thrust.cruise b) ∧ Agree (fun b => Thrust.descentIdle b) ∧
    Agree (fun b => Fuel.atThrust b) ∧ Agree (fun b => Fuel.takeoff b) ∧
    Agree (fun b => Fuel.enroute b) :=
  ⟨⟨rfl, atmos_casadi⟩, ⟨rfl, temperature_casadi⟩, ⟨rfl, pressure_casadi⟩,
   ⟨rfl, density_casadi⟩, ⟨rfl, vsound_casadi⟩, ⟨rfl, hIsa_casadi⟩, ⟨rfl, tas2mach_casadi⟩,
   ⟨rfl, mach2tas_casadi⟩, ⟨rfl, eas2tas_casadi⟩, ⟨rfl, tas2eas_casadi⟩, ⟨rfl, cas2tas_casadi⟩,
   ⟨rfl, tas2cas_casadi⟩, ⟨rfl, mach2cas_casadi⟩, ⟨rfl, cas2mach_casadi⟩,
   ⟨rfl, crossoverAlt_casadi⟩, ⟨rfl, rfl⟩, ⟨rfl, rfl⟩, ⟨rfl, rfl⟩, ⟨rfl, solarZenith_casadi⟩,
   ⟨rfl, clean_casadi⟩, ⟨rfl, nonclean_casadi⟩, ⟨rfl, thrustTakeoff_casadi⟩,
   ⟨rfl, climb_casadi⟩, ⟨rfl, cruise_casadi⟩, ⟨rfl, descentIdle_casadi⟩,
   ⟨rfl, atThrust_casadi⟩, ⟨rfl, fuelTakeoff_casadi⟩, ⟨rfl, enroute_casadi⟩⟩

/-- The agreement is not automatic: the two `clip` functions differ when the limits are
given in the wrong order. -/
example : casadi.clip 5 7 3 ≠ np.clip 5 7 3 := by
  norm_num [casadi, np, clipR]

/-! ## Arrays -/

/-- The scalar record of an aircraft, as seen by array code (a Python float broadcasts). -/
def bcAirframe (ι : Type) (a : Drag.Airframe ℝ) : Drag.Airframe (ι → ℝ) :=
  ⟨fun _ => a.area, fun _ => a.span, fun _ => a.sweep, a.tc.map fun x _ => x, fun _ => a.mtow,
    a.rear⟩
/-- The same for a drag polar. -/
def bcPolar (ι : Type) (p : Drag.Polar ℝ) : Drag.Polar (ι → ℝ) :=
  ⟨fun _ => p.cd0, fun _ => p.k, fun _ => p.lambdaF, fun _ => p.cfc, fun _ => p.sfs⟩
/-- The same for thrust parameters. -/
def bcThrust (ι : Type) (p : Thrust.Params ℝ) : Thrust.Params (ι → ℝ) :=
  ⟨fun _ => p.cruiseAlt, fun _ => p.bpr, fun _ => p.maxThrust, fun _ => p.number,
    fun _ => p.cruiseMach, fun _ => p.cruiseThrust⟩
/-- The same for fuel parameters. -/
def bcFuel (ι : Type) (p : Fuel.Params ℝ) : Fuel.Params (ι → ℝ) :=
  ⟨fun _ => p.scale, fun _ => p.c1, fun _ => p.c2, fun _ => p.c3, fun _ => p.maxThrust,
    fun _ => p.number⟩
/-- The same for emission parameters. -/
def bcEmission (ι : Type) (p : Emission.Params ℝ) : Emission.Params (ι → ℝ) :=
  ⟨fun _ => p.number, fun k _ => p.ff k, fun k _ => p.nox k, fun k _ => p.co k,
    fun k _ => p.hc k⟩

/-- **C21 (atmosphere and airspeeds).** On arrays of the same shape every function acts
index by index. -/
theorem C21_aero_elementwise (ι : Type) :
    Elementwise₂ (Aero.temperature (npArr ι)) (Aero.temperature np) ∧
    Elementwise₂ (Aero.pressure (npArr ι)) (Aero.pressure np) ∧
    Elementwise₂ (Aero.density (npArr ι)) (Aero.density np) ∧
    Elementwise₂ (Aero.vsound (npArr ι)) (Aero.vsound np) ∧
    Elementwise₂ (Aero.hIsa (npArr ι)) (Aero.hIsa np) ∧
    Elementwise₃ (Aero.tas2mach (npArr ι)) (Aero.tas2mach np) ∧
    Elementwise₃ (Aero.mach2tas (npArr ι)) (Aero.mach2tas np) ∧
    Elementwise₃ (Aero.eas2tas (npArr ι)) (Aero.eas2tas np) ∧
    Elementwise₃ (Aero.tas2eas (npArr ι)) (Aero.tas2eas np) ∧
    Elementwise₃ (Aero.cas2tas (npArr ι)) (Aero.cas2tas np) ∧
    Elementwise₃ (Aero.tas2cas (npArr ι)) (Aero.tas2cas np) ∧
    Elementwise₃ (Aero.mach2cas (npArr ι)) (Aero.mach2cas np) ∧
    Elementwise₃ (Aero.cas2mach (npArr ι)) (Aero.cas2mach np) ∧
    Elementwise₃ (Aero.crossoverAlt (npArr ι)) (Aero.crossoverAlt np) :=
  ⟨fun _ _ _ => rfl, fun _ _ _ => rfl, fun _ _ _ => rfl, fun _ _ _ => rfl, fun _ _ _ => rfl,
   fun _ _ _ _ => rfl, fun _ _ _ _ => rfl, fun _ _ _ _ => rfl, fun _ _ _ _ => rfl,
   fun _ _ _ _ => rfl, fun _ _ _ _ => rfl, fun _ _ _ _ => rfl, fun _ _ _ _ => rfl,
   fun _ _ _ _ => rfl⟩

/-- **C21 (geodesy).** -/
theorem C21_geo_elementwise (ι : Type) (la lo lb lp d : ι → ℝ) (i : ι) :
    Geo.distance (npArr ι) la lo lb lp d i = Geo.distance np (la i) (lo i) (lb i) (lp i) (d i) ∧
    Geo.bearing (npArr ι) la lo lb lp i = Geo.bearing np (la i) (lo i) (lb i) (lp i) ∧
    (Geo.latlon (npArr ι) la lo lb lp d).1 i =
      (Geo.latlon np (la i) (lo i) (lb i) (lp i) (d i)).1 ∧
    (Geo.latlon (npArr ι) la lo lb lp d).2 i =
      (Geo.latlon np (la i) (lo i) (lb i) (lp i) (d i)).2 := ⟨rfl, rfl, rfl, rfl⟩

/-- **C21 (performance models).** -/
theorem C21_performance_elementwise (ι : Type) (ac : Drag.Airframe ℝ) (pol : Drag.Polar ℝ)
    (e : Thrust.Params ℝ) (f : Fuel.Params ℝ) (q : Emission.Params ℝ) (wave gear lim : Bool)
    (mass tas alt flap vs dT roc acc thr ffac : ι → ℝ) (i : ι) :
    Drag.clean (npArr ι) (bcAirframe ι ac) (bcPolar ι pol) wave mass tas alt vs dT i =
      Drag.clean np ac pol wave (mass i) (tas i) (alt i) (vs i) (dT i) ∧
    Drag.nonclean (npArr ι) (bcAirframe ι ac) (bcPolar ι pol) mass tas alt flap vs dT gear i =
      Drag.nonclean np ac pol (mass i) (tas i) (alt i) (flap i) (vs i) (dT i) gear ∧
    Thrust.takeoff (npArr ι) (bcThrust ι e) tas alt dT i =
      Thrust.takeoff np e (tas i) (alt i) (dT i) ∧
    Thrust.climb (npArr ι) (bcThrust ι e) tas alt roc dT i =
      Thrust.climb np e (tas i) (alt i) (roc i) (dT i) ∧
    Thrust.cruise (npArr ι) (bcThrust ι e) tas alt dT i =
      Thrust.cruise np e (tas i) (alt i) (dT i) ∧
    Thrust.descentIdle (npArr ι) (bcThrust ι e) tas alt dT i =
      Thrust.descentIdle np e (tas i) (alt i) (dT i) ∧
    Fuel.atThrust (npArr ι) (bcFuel ι f) thr i = Fuel.atThrust np f (thr i) ∧
    Fuel.takeoff (npArr ι) (bcFuel ι f) (bcThrust ι e) tas alt thr i =
      Fuel.takeoff np f e (tas i) (alt i) (thr i) ∧
    Fuel.enroute (npArr ι) (bcFuel ι f) (bcAirframe ι ac) (bcPolar ι pol) wave mass tas alt vs
        acc dT lim i =
      Fuel.enroute np f ac pol wave (mass i) (tas i) (alt i) (vs i) (acc i) (dT i) lim ∧
    Emission.nox (npArr ι) (bcEmission ι q) ffac tas alt dT i =
      Emission.nox np q (ffac i) (tas i) (alt i) (dT i) ∧
    Emission.co (npArr ι) (bcEmission ι q) ffac tas alt dT i =
      Emission.co np q (ffac i) (tas i) (alt i) (dT i) ∧
    Emission.hc (npArr ι) (bcEmission ι q) ffac tas alt dT i =
      Emission.hc np q (ffac i) (tas i) (alt i) (dT i) := by
  obtain ⟨A, S, sw, tc, mt, rear⟩ := ac
  refine ⟨?_, ?_, rfl, rfl, rfl, rfl, rfl, rfl, ?_, rfl, rfl, rfl⟩ <;>
    cases tc <;> cases rear <;> cases wave <;> cases gear <;> rfl

/-- Two different operating points in one call. -/
example : Aero.temperature (npArr (Fin 2)) ![0, 11000] ![0, 10] 1 = Aero.temperature np 11000 10 :=
  (C21_aero_elementwise (Fin 2)).1 _ _ _

end Verif.Props
