import Verif.Spec.Gen

/-!
# Schedules flown in the usual order

Conditions on the constants of a climb or descent under which its constant calibrated airspeed and
constant Mach number are meant to be its largest ones.
-/

namespace Verif.Gen

/-- A climb schedule: the crossover altitude is between the constant-CAS altitude and the
tropopause and above 1500 ft, and one step after lift-off the aircraft is slower than the constant
CAS; lift-off is below the constant Mach number even at the coldest. -/
structure ClimbParams.Ordered (P : ClimbParams) : Prop where
  vcas : 0 < P.vcas
  mach : 1e-4 ≤ P.mach
  ic : 1500 * 0.3048 ≤ P.hMach
  cas : P.hCas ≤ P.hMach
  trop : P.hMach ≤ 11000
  lift : P.vTof ≤ 295 * P.mach
  takeoff : 1.001 * (P.vTof + P.aTof * P.dt) ≤ P.vcas

/-- A descent schedule: it starts above the crossover altitude, which is below the tropopause; the
approach speed is below the constant CAS; the brakes slow the aircraft at least as much as it slows
in the air, by 0.2 m/s each second; one step of that is less than the approach speed; the rates of
descent are moderate. -/
structure DescentParams.Ordered (P : DescentParams) : Prop where
  vcas : 0 < P.vcas
  mach : 1e-4 ≤ P.mach
  start : P.hMach ≤ P.hCr
  trop : P.hMach ≤ 11000
  approach : 1.001 * P.vApp ≤ P.vcas
  brakes : P.aLnd ≤ -0.2
  dt : 0.2 * P.dt < P.vApp
  rateMach : -P.vsMach * P.mach ≤ 7.4
  rateCas : -P.vsCas * P.mach ≤ 10.5
  ratePost : -P.vsPost * P.mach ≤ 10.5
  rateFa : -P.vsFa * P.mach ≤ 10.5

/-- Below the maximum operating Mach number, the maximum operating speed (in knots) and the ceiling
(in metres) that the file of the aircraft states. -/
structure InLimits (a : Tables.AircraftRow) (v h : ℝ) : Prop where
  mmo : ∀ l, a.mmo = some l → Aero.tas2mach np v h 0 ≤ Tables.real l
  vmo : ∀ l, a.vmo = some l → Aero.tas2cas np v h 0 ≤ Tables.real l * 0.514444
  ceiling : ∀ l, a.ceiling = some l → h ≤ Tables.real l

/-- Arguments that leave speeds and altitude to the generator, without random parameters; time
steps of at most 10 s. -/
structure Kw.Default (kw : Kw) : Prop where
  random : kw.random ≠ some true
  casCl : kw.casCl = none
  machCl : kw.machCl = none
  casDe : kw.casDe = none
  machDe : kw.machDe = none
  machCr : kw.machCr = none
  altCr : kw.altCr = none
  dt : ∀ d, kw.dt = some d → 0 < d ∧ d ≤ 10

end Verif.Gen
