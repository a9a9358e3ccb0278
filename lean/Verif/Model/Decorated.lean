import Verif.Prelude.Shaped
import Verif.Model.Emission
import Verif.Model.Fuel

/-!
# The decorated methods with their decorators

`Model/Drag.lean`, `Thrust.lean`, `Fuel.lean` and `Emission.lean` give the bodies of the methods.
Here the methods are put together with `@ndarrayconvert` (`/repo/openap/extra/__init__.py:27-96`)
at every call, also at the calls of one decorated method from another, on the carrier `Nd` of
numbers and arrays. CasADi arguments are not in this carrier.
-/

namespace Verif.Decorated
open Verif.Aero Verif.Nd

/-- An argument of a call. `given = false`: the argument was omitted and `val` is the default,
which the wrapper does not see. -/
structure Arg where
  val : Nd
  given : Bool := true

/-- `_is_symbolic_type`, `extra/__init__.py:8-24`, for values of this carrier. -/
def symbolic (a : Arg) : Bool := a.given && (match a.val with
  | some x => x.jx
  | none => false)

/-- Conversion of one argument, `extra/__init__.py:53-73`: a number becomes an array with one
element. -/
def convert (a : Arg) : Nd :=
  match a.given, a.val with
  | true, some ⟨_, [], f⟩ => some ⟨false, [1], fun _ => f []⟩
  | _, v => v

/-- Position in an array of shape `s` of a position in the array without the axes of length 1. -/
def unsqueeze : List ℕ → List ℕ → List ℕ
  | [], _ => []
  | d :: s, i => if d = 1 then 0 :: unsqueeze s i else i.headD 0 :: unsqueeze s i.tail

/-- `to_scalar`, `extra/__init__.py:78-85`: JAX arrays are returned as they are; a NumPy array
with one element becomes a number; with more than one axis, axes of length 1 are removed. -/
def toScalar (a : Arr) : Arr :=
  if a.jx then a
  else if a.shape.prod = 1 then ⟨false, [], fun _ => a.get (a.shape.map fun _ => 0)⟩
  else if 1 < a.shape.length then
    ⟨false, a.shape.filter (· ≠ 1), fun i => a.get (unsqueeze a.shape i)⟩
  else a

/-- `wrapper`, `extra/__init__.py:45-89`: `body` gets the conversion to apply to its arguments. -/
def call (args : List Arg) (body : (Arg → Nd) → Nd) : Nd :=
  if args.any symbolic then body Arg.val else Option.map toScalar (body convert)

/-- `wrapper` around a method that returns a pair. -/
def callPair (args : List Arg) (body : (Arg → Nd) → Nd × Nd) : Nd × Nd :=
  if args.any symbolic then body Arg.val
  else (Option.map toScalar (body convert).1, Option.map toScalar (body convert).2)

/-- An argument passed on in a call. -/
def pass (v : Nd) : Arg := ⟨v, true⟩

/-- Truth value of a flag: `if flag:` raises `ValueError` for an array with several elements, and
for an empty one since NumPy 2.2 (`/repo/uv.lock:800-801` pins 2.4.1). -/
noncomputable def truth : Nd → Option Bool
  | some a => open Classical in
      if a.shape.prod = 1 then some (decide (a.get (a.shape.map fun _ => 0) ≠ 0))
      else none
  | none => none

variable (b : Backend Nd)

/-! ## `drag.py` -/

variable (ac : Drag.Airframe Nd) (pol : Drag.Polar Nd)

/-- `Drag._cl`, `drag.py:92-126`. -/
noncomputable def cl (mass tas alt vs dT : Arg) : Nd × Nd :=
  callPair [mass, tas, alt, vs, dT] fun c =>
    Drag.cl b ac (c mass) (c tas) (c alt) (c vs) (c dT)

/-- `Drag._calc_drag`, `drag.py:128-156`. -/
noncomputable def calcDrag (mass tas alt cd0 k vs dT : Arg) : Nd :=
  call [mass, tas, alt, cd0, k, vs, dT] fun c =>
    let cl_qS := cl b ac (pass (c mass)) (pass (c tas)) (pass (c alt)) (pass (c vs)) (pass (c dT))
    let cd := c cd0 + c k * cl_qS.1 ^ 2
    cd * cl_qS.2

/-- `dCdw` of `Drag.clean`, `drag.py:185-206`; `_cl` is called without `vs`. -/
noncomputable def waveDrag (mass tas alt dT : Nd) : Nd :=
  let mach := tas2mach b (tas * kts) (alt * ft) dT
  let lift := (cl b ac (pass mass) (pass tas) (pass alt) ⟨0.0, false⟩ (pass dT)).1
  let dmach := b.maximum (mach - Drag.machCrit b ac lift) 0.0
  20.0 * dmach ^ 4

/-- `Drag.clean`, `drag.py:158-214`. -/
noncomputable def clean (wave : Bool) (mass tas alt vs dT : Arg) : Nd :=
  call [mass, tas, alt, vs, dT] fun c =>
    let dCdw := if wave then waveDrag b ac (c mass) (c tas) (c alt) (c dT) else 0.0
    calcDrag b ac (pass (c mass)) (pass (c tas)) (pass (c alt)) (pass (pol.cd0 + dCdw))
      (pass pol.k) (pass (c vs)) (pass (c dT))

/-- `Drag.nonclean`, `drag.py:216-284`; the gear flag goes through the decorator as well. -/
noncomputable def nonclean (mass tas alt flap vs dT gear : Arg) : Nd :=
  call [mass, tas, alt, flap, vs, dT, gear] fun c =>
    match truth (c gear) with
    | none => none
    | some g =>
      let delta_cd_gear := if g then Drag.gearCd b ac else 0.0
      calcDrag b ac (pass (c mass)) (pass (c tas)) (pass (c alt))
        (pass (pol.cd0 + Drag.flapCd b pol (c flap) + delta_cd_gear))
        (pass (Drag.flapK b ac pol (c flap))) (pass (c vs)) (pass (c dT))

/-! ## `thrust.py` -/

variable (e : Thrust.Params Nd)

/-- `Thrust.takeoff`, `thrust.py:121-163`. -/
noncomputable def thrustTakeoff (tas alt dT : Arg) : Nd :=
  call [tas, alt, dT] fun c => Thrust.takeoff b e (c tas) (c alt) (c dT)

/-- `Thrust.climb`, `thrust.py:179-245`. -/
noncomputable def climb (tas alt roc dT : Arg) : Nd :=
  call [tas, alt, roc, dT] fun c => Thrust.climb b e (c tas) (c alt) (c roc) (c dT)

/-- `Thrust.cruise`, `thrust.py:165-177`. -/
noncomputable def cruise (tas alt dT : Arg) : Nd :=
  call [tas, alt, dT] fun c =>
    climb b e (pass (c tas)) (pass (c alt)) (pass 0.0) (pass (c dT))

/-- `Thrust.descent_idle`, `thrust.py:247-262`, which is not decorated. -/
noncomputable def descentIdle (tas alt dT : Arg) : Nd :=
  0.07 * thrustTakeoff b e (pass tas.val) (pass alt.val) (pass dT.val)

/-! ## `fuel.py` -/

variable (f : Fuel.Params Nd)

/-- `FuelFlow.at_thrust`, `fuel.py:97-131`. -/
noncomputable def atThrust (thrust : Arg) : Nd :=
  call [thrust] fun c => Fuel.atThrust b f (c thrust)

/-- `FuelFlow.takeoff`, `fuel.py:133-158`, with an altitude. -/
noncomputable def fuelTakeoff (tas alt throttle : Arg) : Nd :=
  call [tas, alt, throttle] fun c =>
    let Tmax := thrustTakeoff b e (pass (c tas)) (pass (c alt)) ⟨0.0, false⟩
    c throttle * atThrust b f (pass Tmax)

/-- `FuelFlow.enroute`, `fuel.py:160-200`. The flag `limit` is converted and not read. -/
noncomputable def enroute (wave : Bool) (mass tas alt vs acc dT limit : Arg) : Nd :=
  call [mass, tas, alt, vs, acc, dT, limit] fun c =>
    let D := clean b ac pol wave (pass (c mass)) (pass (c tas)) (pass (c alt)) (pass (c vs))
      (pass (c dT))
    let gam := b.arctan2 (c vs * fpm) (c tas * kts)
    let T := D + c mass * 9.81 * b.sin gam + c mass * c acc
    atThrust b f (pass T)

/-! ## `emission.py` -/

variable (em : Emission.Params Nd)

/-- `Emission.co2`, `emission.py:60-72`. -/
noncomputable def co2 (ffac : Arg) : Nd := call [ffac] fun c => Emission.co2 (c ffac)
/-- `Emission.h2o`, `emission.py:74-86`. -/
noncomputable def h2o (ffac : Arg) : Nd := call [ffac] fun c => Emission.h2o (c ffac)
/-- `Emission.soot`, `emission.py:88-100`. -/
noncomputable def soot (ffac : Arg) : Nd := call [ffac] fun c => Emission.soot (c ffac)
/-- `Emission.sox`, `emission.py:102-114`. -/
noncomputable def sox (ffac : Arg) : Nd := call [ffac] fun c => Emission.sox (c ffac)

/-- `Emission.nox`, `emission.py:116-164`. -/
noncomputable def nox (ffac tas alt dT : Arg) : Nd :=
  call [ffac, tas, alt, dT] fun c => Emission.nox b em (c ffac) (c tas) (c alt) (c dT)
/-- `Emission.co`, `emission.py:166-212`. -/
noncomputable def co (ffac tas alt dT : Arg) : Nd :=
  call [ffac, tas, alt, dT] fun c => Emission.co b em (c ffac) (c tas) (c alt) (c dT)
/-- `Emission.hc`, `emission.py:214-259`. -/
noncomputable def hc (ffac tas alt dT : Arg) : Nd :=
  call [ffac, tas, alt, dT] fun c => Emission.hc b em (c ffac) (c tas) (c alt) (c dT)

end Verif.Decorated
