import Verif.Model.Aero
import Verif.Prelude.Py

/-!
# `openap/addon/bada3.py`: drag, thrust, fuel flow

Classes `Drag`, `Thrust`, `FuelFlow` of `/repo/openap/addon/bada3.py:271-633` over `ℝ`, scalar inputs
(the decorator `@ndarrayconvert` is modelled in `Model/Ndarray.lean`). The methods call `self.sci`,
an attribute that no constructor sets (`/repo/openap/base.py:24-26`, `52-54`, `88-90` set `backend`,
`aero` and `ac` only): it is an optional field here, and reading it when absent raises AttributeError.
A user can supply it after construction (`drag.sci = numpy`). The engine type is a string in the code;
the four strings it is compared with are constructors here and all others are `other`. The result of
parsing the files (`load_bada3`) is an argument. Division by zero follows Lean (`x / 0 = 0`), so
theorems about values assume non-zero divisors.
-/

namespace Verif.Bada3
open Verif Verif.Aero

/-- The values of `engine.type` the code distinguishes, `bada3.py:430-437`. -/
inductive Engine where
  | turbofan | turboprop | piston | electric | other
  deriving DecidableEq

/-- The strings used as `phase` (`bada3.py:364`) and `config` (`bada3.py:497`). -/
inductive Config where
  | cr | ap | ld | other
  deriving DecidableEq

/-- The entries of the BADA3 record that the classes read. -/
structure Record where
  area : ℝ
  cd0cr : ℝ
  cd2cr : ℝ
  cd0ap : ℝ
  cd2ap : ℝ
  cd0ld : ℝ
  cd2ld : ℝ
  lgear : ℝ
  engine : Engine
  ct : Fin 5 → ℝ
  deshigh : ℝ
  deslow : ℝ
  desapp : ℝ
  desld : ℝ
  hpdes : ℝ
  cf1 : ℝ
  cf2 : ℝ
  cf3 : ℝ
  cf4 : ℝ
  cfcr : ℝ

/-- What `base.*Base.__init__` makes: `backend` (used through `aero`), and no `sci`. -/
structure Base where
  backend : Backend ℝ
  sci : Option (Backend ℝ)

/-- `base.py:24-26` (`52-54`, `88-90`): `backend or default_backend()`. -/
noncomputable def base (backend : Option (Backend ℝ)) : Base := ⟨backend.getD np, none⟩

/-- `self.sci`. -/
def Base.getSci (o : Base) : Except PyError (Backend ℝ) :=
  match o.sci with
  | some b => .ok b
  | none => .error .attributeError

/-- `if not model: model = load_bada3(ac, bada_path)`, `bada3.py:277-278`, `393-394`, `518-519`;
`loaded` is the outcome of that call. -/
def resolve (model : Option Record) (loaded : Except PyError Record) : Except PyError Record :=
  match model with
  | some m => .ok m
  | none => loaded

/-! ### Drag -/

structure Drag where
  base : Base
  area : ℝ
  cd0cr : ℝ
  cd2cr : ℝ
  cd0ap : ℝ
  cd2ap : ℝ
  cd0ld : ℝ
  cd2ld : ℝ
  lgear : ℝ

/-- `Drag.__init__`, `bada3.py:274-286`. -/
noncomputable def mkDrag (backend : Option (Backend ℝ)) (model : Option Record)
    (loaded : Except PyError Record) : Except PyError Drag := do
  let m ← resolve model loaded
  return ⟨Bada3.base backend, m.area, m.cd0cr, m.cd2cr, m.cd0ap, m.cd2ap, m.cd0ld, m.cd2ld, m.lgear⟩

/-- `Drag._cd`, `bada3.py:288-303`. -/
noncomputable def cd (cl cd0 cd2 cd0lg : ℝ) : ℝ := cd0 + cd0lg + cd2 * cl ^ 2

/-- `Drag._cl`, `bada3.py:305-327`: lift coefficient and dynamic pressure times area. -/
noncomputable def Drag.cl (o : Drag) (mass tas alt : ℝ) : Except PyError (ℝ × ℝ) := do
  let v := tas * kts
  let h := alt * ft
  let rho := density o.base.backend h 0
  let qS := 0.5 * rho * v ^ 2 * o.area
  let L := mass * g0
  let sci ← o.base.getSci
  let cl := L / sci.maximum qS 1e-3
  return (cl, qS)

/-- `Drag.clean`, `bada3.py:329-346`. -/
noncomputable def Drag.clean (o : Drag) (mass tas alt : ℝ) : Except PyError ℝ := do
  let (cl, qS) ← o.cl mass tas alt
  let cd := Bada3.cd cl o.cd0cr o.cd2cr 0.0
  return cd * qS

open Classical in
/-- `Drag.nonclean`, `bada3.py:348-384`. -/
noncomputable def Drag.nonclean (o : Drag) (mass tas alt : ℝ) (gear : Bool) (phase : Config) :
    Except PyError ℝ := do
  if phase ≠ .ap ∧ phase ≠ .ld then throw .valueError
  let (cl, qS) ← o.cl mass tas alt
  let cd :=
    if phase = .ap then
      if o.cd0ap = 0 ∧ o.cd2ap = 0 then Bada3.cd cl o.cd0cr o.cd2cr 0.0
      else Bada3.cd cl o.cd0ap o.cd2ap 0.0
    else
      if o.cd0ld = 0 ∧ o.cd2ld = 0 then Bada3.cd cl o.cd0cr o.cd2cr 0.0
      else Bada3.cd cl o.cd0ld o.cd2ld (if gear then o.lgear else 0.0)
  return cd * qS

/-! ### Thrust -/

structure Thrust where
  base : Base
  engine : Engine
  ct : Fin 5 → ℝ
  deshigh : ℝ
  deslow : ℝ
  desapp : ℝ
  desld : ℝ
  hpdes : ℝ

open Classical in
/-- `Thrust.__init__`, `bada3.py:390-413`. -/
noncomputable def mkThrust (backend : Option (Backend ℝ)) (model : Option Record)
    (loaded : Except PyError Record) : Except PyError Thrust := do
  let m ← resolve model loaded
  let b := Bada3.base backend
  let hpdes ← if m.cd0ap = 0 ∧ m.cd0ld = 0 ∧ m.lgear = 0 ∧ m.cd2ap = 0 ∧ m.cd2ld = 0 then do
      let sci ← b.getSci
      pure (sci.maximum m.hpdes 8000.0)
    else pure m.hpdes
  return ⟨b, m.engine, m.ct, m.deshigh, m.deslow, m.desapp, m.desld, hpdes⟩

/-- `Thrust.climb`, `bada3.py:415-445`. -/
noncomputable def Thrust.climb (o : Thrust) (tas alt dT : ℝ) : Except PyError ℝ := do
  let isa ← match o.engine with
    | .turbofan => pure (o.ct 0 * (1 - alt / o.ct 1 + o.ct 2 * alt ^ 2))
    | .turboprop => pure (o.ct 0 / tas * (1 - alt / o.ct 1) + o.ct 2)
    | .piston | .electric => pure (o.ct 0 * (1 - alt / o.ct 1) + o.ct 2 / tas)
    | .other => throw .valueError
  let dTeff := dT - o.ct 3
  let sci ← o.base.getSci
  let c := sci.maximum (o.ct 4) 0.0
  let lim := sci.maximum 0.0 (sci.minimum (c * dTeff) 0.4)
  return isa * (1 - lim)

/-- `Thrust.cruise`, `bada3.py:447-464`. -/
noncomputable def Thrust.cruise (o : Thrust) (tas alt dT : ℝ) : Except PyError ℝ := do
  let t ← o.climb tas alt dT
  return 0.95 * t

/-- `Thrust.takeoff`, `bada3.py:466-479`. -/
noncomputable def Thrust.takeoff (o : Thrust) (tas alt dT : ℝ) : Except PyError ℝ := o.climb tas alt dT

open Classical in
/-- `Thrust.idle`, `bada3.py:481-509`; the default of `config` is None, here `other`. -/
noncomputable def Thrust.idle (o : Thrust) (tas alt dT : ℝ) (config : Config) : Except PyError ℝ := do
  let t ← o.climb tas alt dT
  if config = .other then throw .valueError
  if alt > o.hpdes then return o.deshigh * t
  let c := if config = .cr then o.deslow else if config = .ap then o.desapp else o.desld
  return c * t

/-! ### Fuel flow -/

structure FuelFlow where
  base : Base
  thrust : Thrust
  drag : Drag
  engine : Engine
  cf1 : ℝ
  cf2 : ℝ
  cf3 : ℝ
  cf4 : ℝ
  cfcr : ℝ

/-- `FuelFlow.__init__`, `bada3.py:515-528`: the parts get the record but not the backend. -/
noncomputable def mkFuelFlow (backend : Option (Backend ℝ)) (model : Option Record)
    (loaded : Except PyError Record) : Except PyError FuelFlow := do
  let m ← resolve model loaded
  let t ← mkThrust none (some m) loaded
  let d ← mkDrag none (some m) loaded
  return ⟨Bada3.base backend, t, d, m.engine, m.cf1, m.cf2, m.cf3, m.cf4, m.cfcr⟩

/-- `FuelFlow.idle`, `bada3.py:588-608`. -/
noncomputable def FuelFlow.idle (o : FuelFlow) (alt : ℝ) : Except PyError ℝ := do
  let f ← match o.engine with
    | .turbofan | .turboprop => pure (o.cf3 * (1 - alt / o.cf4))
    | .piston | .electric => pure o.cf3
    | .other => throw .valueError
  return f / 60.0

/-- `FuelFlow.nominal`, `bada3.py:530-568`. -/
noncomputable def FuelFlow.nominal (o : FuelFlow) (mass tas alt vs : ℝ) : Except PyError ℝ := do
  let v := tas * kts
  let sci ← o.base.getSci
  let gam := sci.arctan2 (vs * fpm) v
  let D ← o.drag.clean mass tas alt
  let tc ← o.thrust.climb tas alt 0
  let T := sci.minimum (D + mass * g0 * sci.sin gam) tc
  let f ← match o.engine with
    | .turbofan => pure (o.cf1 * (1 + tas / o.cf2) * 1e-3 * T)
    | .turboprop => pure (o.cf1 * (1 - tas / o.cf2) * (tas / 1e3) * 1e-3 * T)
    | .piston | .electric => pure o.cf1
    | .other => throw .valueError
  let i ← o.idle alt
  return sci.maximum f i / 60.0

/-- `FuelFlow.enroute`, `bada3.py:570-586`. -/
noncomputable def FuelFlow.enroute (o : FuelFlow) (mass tas alt vs : ℝ) : Except PyError ℝ := do
  let f ← o.nominal mass tas alt vs
  return o.cfcr * f

/-- `FuelFlow.approach`, `bada3.py:610-633`. -/
noncomputable def FuelFlow.approach (o : FuelFlow) (mass tas alt vs : ℝ) : Except PyError ℝ := do
  if o.engine ≠ .turbofan ∧ o.engine ≠ .turboprop then throw .valueError
  let f ← o.nominal mass tas alt vs
  let i ← o.idle alt
  let sci ← o.base.getSci
  return sci.maximum f i

end Verif.Bada3
