import Verif.Model.Fuel
import Verif.Prelude.Py

/-!
# Calling `FuelFlow.takeoff` with and without an altitude

`fuel.py:133-158` declares `alt: Optional[Numeric] = None` and hands the value to
`self.thrust.takeoff(tas=tas, alt=alt)`. There the decorator turns `None` into
`np.array([None])` (`extra/__init__.py:67-69`), and `alt * self.aero.ft`
(`thrust.py:144`) multiplies it by a float.
-/

namespace Verif.FuelCall

/-- A Python argument that is either `None` or a number. -/
inductive Arg where
  | none
  | num (x : ℝ)

/-- `arg * float`: `None * float` raises `TypeError`, for scalars and for object arrays. -/
noncomputable def Arg.mul : Arg → ℝ → Except PyError ℝ
  | .none, _ => .error .typeError
  | .num x, y => .ok (x * y)

/-- `Thrust.takeoff(tas, alt)` up to the first use of `alt` (`thrust.py:121-163`). The
pressure is computed from `alt * ft`, so the altitude enters only through `h`. -/
noncomputable def thrustTakeoff (e : Thrust.Params ℝ) (tas : ℝ) (alt : Arg) :
    Except PyError ℝ := do
  let h ← alt.mul Aero.ft
  let mach := Aero.tas2mach np (tas * Aero.kts) 0.0 0.0
  let dP := Aero.pressure np h 0.0 / Aero.p0
  pure (Thrust.takeoffRatio np e mach dP * e.maxThrust * e.number)

/-- `FuelFlow.takeoff(tas, alt=None, throttle=1)`, `fuel.py:133-158`. -/
noncomputable def takeoff (f : Fuel.Params ℝ) (e : Thrust.Params ℝ) (tas : ℝ)
    (alt : Arg := .none) (throttle : ℝ := 1) : Except PyError ℝ := do
  let Tmax ← thrustTakeoff e tas alt
  pure (throttle * Fuel.atThrust np f Tmax)

end Verif.FuelCall
