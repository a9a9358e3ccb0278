import Verif.Lemmas.DefinedPerf
import Verif.Props.Thrust
import Verif.Props.Drag

/-!
# C80: finite in, finite out

The carrier `NR` makes every operation outside its real domain (root of a negative number,
logarithm of a non-positive number, division by zero, inverse sine outside [-1, 1], fractional
power of a negative number) produce `nan`. The theorems below say that on finite inputs the
functions produce a finite number, and that it is the number the real-valued model computes; so
no theorem about the real-valued model relies on a totalised operation.
-/

namespace Verif.Props
open Verif.NR Verif.Aero Verif.Defined

/-- **C80 (atmosphere and airspeeds).** For every finite altitude, speed, Mach number and
temperature shift; `h_isa` for every positive pressure. -/
theorem C80_aero_finite (v h m dT : ℝ) :
    temperature npNR (val h) (val dT) = val (temperature np h dT) ∧
    pressure npNR (val h) (val dT) = val (pressure np h dT) ∧
    density npNR (val h) (val dT) = val (density np h dT) ∧
    vsound npNR (val h) (val dT) = val (vsound np h dT) ∧
    tas2mach npNR (val v) (val h) (val dT) = val (tas2mach np v h dT) ∧
    mach2tas npNR (val m) (val h) (val dT) = val (mach2tas np m h dT) ∧
    eas2tas npNR (val v) (val h) (val dT) = val (eas2tas np v h dT) ∧
    tas2eas npNR (val v) (val h) (val dT) = val (tas2eas np v h dT) ∧
    cas2tas npNR (val v) (val h) (val dT) = val (cas2tas np v h dT) ∧
    tas2cas npNR (val v) (val h) (val dT) = val (tas2cas np v h dT) ∧
    mach2cas npNR (val m) (val h) (val dT) = val (mach2cas np m h dT) ∧
    cas2mach npNR (val v) (val h) (val dT) = val (cas2mach np v h dT) ∧
    crossoverAlt npNR (val v) (val m) (val dT) = val (crossoverAlt np v m dT) ∧
    (∀ p, 0 < p → hIsa npNR (val p) (val dT) = val (hIsa np p dT)) :=
  ⟨temperature_def h dT, pressure_def h dT, density_def h dT, vsound_def h dT,
   tas2mach_def v h dT, mach2tas_def m h dT, eas2tas_def v h dT, tas2eas_def v h dT,
   cas2tas_def v h dT, tas2cas_def v h dT, mach2cas_def m h dT, cas2mach_def v h dT,
   crossoverAlt_def v m dT, fun p hp => hIsa_def p dT hp⟩

/-- The pressure condition is needed: zero pressure has no pressure altitude. -/
example : hIsa npNR (val 0) (val 0) = nan := by
  have h1 : (p0 : NR) / val 0 = nan := by
    change (if (0 : ℝ) = 0 then nan else _) = _; simp
  have h2 : (val 0 : NR) / 22630.0 = val (0 / 22630.0) := val_div _ _ (by norm_num)
  have h3 : npNR.log (val (0 / 22630.0)) = nan := by
    simp [npNR, NR.partialMap]
  have h4 : ∀ x : NR, npNR.whereGt (val 0) 22630.0 x nan = nan := by
    intro x
    change (if (0 : ℝ) > 22630.0 then x else nan) = nan
    rw [if_neg (by norm_num)]
  simp only [hIsa, h2, h3, mul_nan, nan_add, h4]

/-- **C80 (geodesy).** For every pair of points, bearing and distance; `latlon` for every
height other than minus the earth radius. -/
theorem C80_geo_finite (a l c m d h : ℝ) (hh : 6371000 + h ≠ 0) :
    Geo.distance npNR (val a) (val l) (val c) (val m) (val h) =
      val (Geo.distance np a l c m h) ∧
    Geo.bearing npNR (val a) (val l) (val c) (val m) = val (Geo.bearing np a l c m) ∧
    Geo.latlon npNR (val a) (val l) (val d) (val c) (val h) =
      (val (Geo.latlon np a l d c h).1, val (Geo.latlon np a l d c h).2) :=
  ⟨distance_def a l c m h, bearing_def a l c m, latlon_def a l d c h hh⟩

example : Geo.distance npNR (val 90) (val 0) (val (-90)) (val 0) (val 0) =
    val (Geo.distance np 90 0 (-90) 0 0) := (C80_geo_finite _ _ _ _ 0 _ (by norm_num)).1

/-- **C80 (drag).** For every mass, speed (including zero), altitude, vertical rate and shift. -/
theorem C80_drag_finite (ac : Drag.Airframe ℝ) (pol : Drag.Polar ℝ) (m v h vs dT flap : ℝ)
    (wave gear : Bool) :
    ((wave = true → Real.cos (ac.sweep * Real.pi / 180) ≠ 0) →
      Drag.clean npNR (liftAirframe ac) (liftPolar pol) wave (val m) (val v) (val h) (val vs)
        (val dT) = val (Drag.clean np ac pol wave m v h vs dT)) ∧
    (0 < ac.area → 0 < ac.mtow → 0 < pol.cfc → 0 < pol.k → 0 ≤ flap →
      Drag.nonclean npNR (liftAirframe ac) (liftPolar pol) (val m) (val v) (val h) (val flap)
        (val vs) (val dT) gear = val (Drag.nonclean np ac pol m v h flap vs dT gear)) := by
  refine ⟨fun hs => clean_def ac pol wave hs m v h vs dT, ?_⟩
  intro hA hm hc hk hf
  refine nonclean_def ac pol hA.ne' hm hc hk.ne' flap (ne_of_gt ?_) m v h vs dT gear
  have h1 : 0 < 1 / pol.k := by positivity
  have h2 : 0 ≤ Real.pi * (ac.span ^ 2 / ac.area) *
      ((if ac.rear then 0.0046 else 0.0026) * flap) := by
    have : (0:ℝ) ≤ (if ac.rear then 0.0046 else 0.0026) := by split_ifs <;> norm_num
    have := Real.pi_pos
    positivity
  linarith

example : Drag.clean npNR (liftAirframe a320) (liftPolar a320polar) false (val 60000) (val 0)
    (val 35000) (val 1000) (val 0) = val (Drag.clean np a320 a320polar false 60000 0 35000 1000 0) :=
  (C80_drag_finite a320 a320polar 60000 0 35000 1000 0 0 false true).1 (by simp)

/-- **C80 (thrust, fuel flow, emissions).** -/
theorem C80_engine_finite (e : Thrust.Params ℝ) (f : Fuel.Params ℝ) (q : Emission.Params ℝ)
    (ac : Drag.Airframe ℝ) (pol : Drag.Polar ℝ) (wave lim : Bool)
    (hb : 0 ≤ e.bpr) (hM : 0 < e.cruiseMach) (hF : e.cruiseThrust * e.number ≠ 0)
    (h1 : 0 < f.c1) (h2 : f.c2 ≠ 0) (hn : f.number ≠ 0) (hm : f.maxThrust ≠ 0)
    (hq : q.number ≠ 0) (hs : wave = true → Real.cos (ac.sweep * Real.pi / 180) ≠ 0)
    (m v h roc vs acc dT T ffac : ℝ) :
    Thrust.takeoff npNR (liftThrust e) (val v) (val h) (val dT) =
      val (Thrust.takeoff np e v h dT) ∧
    Thrust.climb npNR (liftThrust e) (val v) (val h) (val roc) (val dT) =
      val (Thrust.climb np e v h roc dT) ∧
    Thrust.cruise npNR (liftThrust e) (val v) (val h) (val dT) =
      val (Thrust.cruise np e v h dT) ∧
    Thrust.descentIdle npNR (liftThrust e) (val v) (val h) (val dT) =
      val (Thrust.descentIdle np e v h dT) ∧
    Fuel.atThrust npNR (liftFuel f) (val T) = val (Fuel.atThrust np f T) ∧
    Fuel.enroute npNR (liftFuel f) (liftAirframe ac) (liftPolar pol) wave (val m) (val v) (val h)
      (val vs) (val acc) (val dT) lim =
      val (Fuel.enroute np f ac pol wave m v h vs acc dT lim) ∧
    (0.0019812 * h < 288.15 →
      Emission.nox npNR (liftEmission q) (val ffac) (val v) (val h) (val dT) =
        val (Emission.nox np q ffac v h dT) ∧
      Emission.co npNR (liftEmission q) (val ffac) (val v) (val h) (val dT) =
        val (Emission.co np q ffac v h dT) ∧
      Emission.hc npNR (liftEmission q) (val ffac) (val v) (val h) (val dT) =
        val (Emission.hc np q ffac v h dT)) :=
  ⟨takeoff_def e hb v h dT, climb_def e hM hF v h roc dT, cruise_def e hM hF v h dT,
   descentIdle_def e hb v h dT, atThrust_def f h1 h2 hn hm T,
   enroute_def f h1 h2 hn hm ac pol wave hs m v h vs acc dT lim,
   fun ha => ⟨nox_def q hq ffac v h dT ha, co_def q hq ffac v h dT ha,
    hc_def q hq ffac v h dT ha⟩⟩

example : Thrust.climb npNR (liftThrust a320thrust) (val 0) (val 35000) (val 0) (val 0) =
    val (Thrust.climb np a320thrust 0 35000 0 0) :=
  (C80_engine_finite a320thrust ⟨1, 1.04, 2.36, 1.23, 120000, 2⟩
    ⟨2, fun _ => 1, fun _ => 1, fun _ => 1, fun _ => 1⟩ a320 a320polar false false
    (by norm_num [a320thrust]) (by norm_num [a320thrust]) (by norm_num [a320thrust])
    (by norm_num) (by norm_num) (by norm_num) (by norm_num) (by norm_num) (by simp)
    0 0 35000 0 0 0 0 0 0).2.1

end Verif.Props
