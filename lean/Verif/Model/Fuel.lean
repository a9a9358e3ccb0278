import Verif.Model.Drag
import Verif.Model.Thrust

/-!
# `openap/fuel.py`

Methods of class `FuelFlow` (`/repo/openap/fuel.py:67-200`), term by term.
-/

namespace Verif.Fuel
open Verif.Aero

/-- Coefficients of the fuel model in force (`fuel.py:82-90`) and the engine and aircraft
numbers read by `at_thrust` (`fuel.py:110-111`). -/
structure Params (α : Type) where
  scale : α
  c1 : α
  c2 : α
  c3 : α
  maxThrust : α
  number : α

variable {α : Type} [Add α] [Sub α] [Mul α] [Div α] [Neg α] [OfScientific α] [Pow α ℕ]
variable (b : Backend α) (f : Params α)

/-- The closure returned by `_load_fuel_model`, `fuel.py:92-95`. -/
def funcFuel (x : α) : α :=
  f.scale * (f.c1 - b.exp (-f.c2 * (x * b.exp (f.c3 * x) - b.log f.c1 / f.c2)))

/-- The smooth limiter of the thrust ratio, `fuel.py:121-127`. -/
def limiter (ratio : α) : α :=
  (b.log (1.0 + b.exp (50.0 * (ratio - 0.03))) - b.log (1.0 + b.exp (45.0 * (ratio - 1.2)))) /
    b.log (1.0 + b.exp 50.0) + 0.03

/-- `FuelFlow.at_thrust`, `fuel.py:97-131`. -/
def atThrust (thrust : α) : α :=
  let ratio := (thrust / f.number) / f.maxThrust
  funcFuel b f (limiter b ratio) * f.number

/-- `FuelFlow.takeoff`, `fuel.py:133-158`, with an altitude given: `dT` is not passed on,
so the thrust is computed at `dT = 0`. -/
def takeoff (e : Thrust.Params α) (tas alt throttle : α) : α :=
  let Tmax := Thrust.takeoff b e tas alt 0.0
  throttle * atThrust b f Tmax

/-- Required thrust in `FuelFlow.enroute`, `fuel.py:192-196`. -/
def enrouteThrust (ac : Drag.Airframe α) (pol : Drag.Polar α) (wave : Bool)
    (mass tas alt vs acc dT : α) : α :=
  let D := Drag.clean b ac pol wave mass tas alt vs dT
  let gam := b.arctan2 (vs * fpm) (tas * kts)
  D + mass * 9.81 * b.sin gam + mass * acc

/-- `FuelFlow.enroute`, `fuel.py:160-200`; the argument `limit` is accepted and not
read. -/
def enroute (ac : Drag.Airframe α) (pol : Drag.Polar α) (wave : Bool)
    (mass tas alt vs acc dT : α) (_limit : Bool) : α :=
  let T := enrouteThrust b ac pol wave mass tas alt vs acc dT
  atThrust b f T

end Verif.Fuel
