import Verif.Model.Registry
import Verif.Model.Drag
import Verif.Model.Thrust
import Verif.Model.Fuel
import Verif.Model.Emission
import Mathlib.Data.Fin.VecNotation

/-!
# Constructors of the performance models

`Thrust.__init__` (`/repo/openap/thrust.py:26-75`), `Drag.__init__` and `load_drag_model`
(`drag.py:26-90`), `FuelFlow.__init__` and `_load_fuel_model` (`fuel.py:22-95`),
`WRAP.__init__` (`kinematic.py:39-66`), `Emission.__init__` (`emission.py:18-42`).

Each constructor is split in two: the selection of records, which may raise, and the
conversion of the selected records to the numbers the methods read. Missing engine numbers
are NaN, so thrust parameters live in `NR`. The keyword `use_synonym` reaches every class
through `**kwargs`; `none` means it is not given, and then it defaults to `False` except in
`WRAP`, where it defaults to `True`. Warnings are not modelled.
-/

namespace Verif.Construct
open Verif.Tables Verif.Registry

variable (db : DB)

/-- `Thrust.__init__`, `thrust.py:44-64`: the aircraft and engine records used. -/
def thrust (ac : Str) (eng : Option Str) (useSynonym : Option Bool) (forceEngine : Bool) :
    Except PyError (AircraftRow × EngineRow) := do
  let a ← aircraft db ac (useSynonym.getD false)
  let eng := eng.getD a.default
  let e ← engine db (upper eng)
  if !forceEngine && !(a.options.any fun opt => isIn (upper opt) (upper e.2)) then
    throw .valueError
  return (a, e.1)

/-- `Drag.load_drag_model`, `drag.py:51-90`; `ac` is already lower case. -/
def polar (ac : Str) (useSynonym : Option Bool) : Except PyError PolarRow :=
  let name : Except PyError Str :=
    if ac ∈ db.polars.map (fun f => lower f.1) then .ok ac
    else match lookup ac db.polarSyn with
      | some new => if useSynonym.getD false then .ok new else .error .valueError
      | none => .error .valueError
  match name with
  | .error e => .error e
  | .ok n => match lookup n db.polars with
    | some p => .ok p
    | none => .error .ioError

/-- `Drag.__init__`, `drag.py:39-46`. -/
def drag (ac : Str) (useSynonym : Option Bool) : Except PyError (AircraftRow × PolarRow) := do
  let a ← aircraft db (lower ac) (useSynonym.getD false)
  let p ← polar db (lower ac) useSynonym
  return (a, p)

/-- `WRAP.__init__`, `kinematic.py:46-66`. -/
def wrap (ac : Str) (useSynonym : Option Bool) : Except PyError (List WrapRow) :=
  let ac := lower ac
  let name : Except PyError Str :=
    if ac ∈ db.wrap.map (fun f => lower f.1) then .ok ac
    else if useSynonym.getD true then
      match lookup ac db.wrapSyn with
      | some new => .ok new
      | none => .error .valueError
    else .error .valueError
  match name with
  | .error e => .error e
  | .ok n => match lookup n db.wrap with
    | some w => .ok w
    | none => .error .ioError

/-- `"default"`. -/
def defaultStr : Str := [100, 101, 102, 97, 117, 108, 116]

/-- First fuel model row for a lower-case type code, `fuel.py:71-80`. -/
def fuelRow (ac : Str) : Option FuelRow := db.fuel.find? fun r => lower r.typecode == ac

/-- `_load_fuel_model`, `fuel.py:67-95`: coefficients and the scale as a quotient. `none` in
the quotient stands for the scale 1. -/
def fuelModel (ac : Str) (engineType : Str) (e : EngineRow) :
    Except PyError (FuelRow × Option (ℕ × Option ℕ)) :=
  match fuelRow db ac with
  | some r =>
    if ac = defaultStr then .ok (r, some (e.ff.toff, none))
    else if engineType ≠ upper r.engineType then
      match engine db r.engineType with
      | .ok ref => .ok (r, some (e.ff.toff, some ref.1.ff.toff))
      | .error x => .error x
    else .ok (r, none)
  | none =>
    match fuelRow db defaultStr with
    | some r => .ok (r, some (e.ff.toff, none))
    | none => .error .indexError

/-- Everything `FuelFlow.__init__` holds on to. -/
structure FuelParts where
  ac : AircraftRow
  eng : EngineRow
  thrust : AircraftRow × EngineRow
  drag : AircraftRow × PolarRow
  wrap : List WrapRow
  model : FuelRow × Option (ℕ × Option ℕ)

/-- `FuelFlow.__init__`, `fuel.py:49-65`. -/
def fuel (ac : Str) (eng : Option Str) (useSynonym : Option Bool) (forceEngine : Bool) :
    Except PyError FuelParts := do
  let a ← aircraft db (lower ac) (useSynonym.getD false)
  let eng := eng.getD a.default
  let e ← engine db eng
  let t ← thrust db ac (some eng) useSynonym forceEngine
  let d ← drag db ac useSynonym
  let w ← wrap db ac useSynonym
  let m ← fuelModel db (lower ac) (upper eng) e.1
  return ⟨a, e.1, t, d, w, m⟩

/-- `Emission.__init__`, `emission.py:34-42`. -/
def emission (ac : Str) (eng : Option Str) (useSynonym : Option Bool) :
    Except PyError (AircraftRow × EngineRow) := do
  let a ← aircraft db ac (useSynonym.getD false)
  let e ← engine db (eng.getD a.default)
  return (a, e.1)

/-! ### The numbers -/

/-- A table cell as pandas reads it: empty is NaN. -/
noncomputable def cell : Option ℕ → NR
  | none => .nan
  | some n => .val (real n)

/-- `thrust.py:66-75`. `nan > 0` is false. -/
noncomputable def thrustParams (a : AircraftRow) (e : EngineRow) : Thrust.Params NR where
  cruiseAlt := .val (real a.height / Aero.ft)
  bpr := cell e.bpr
  maxThrust := cell e.maxThrust
  number := .val (real a.number)
  cruiseMach := if 0 < e.cruiseMach.getD 0 then cell e.cruiseMach else .val (real a.mach)
  cruiseThrust :=
    if 0 < e.cruiseMach.getD 0 then cell e.cruiseThrust else 0.2 * cell e.maxThrust + 890.0

/-- Entries read from the aircraft record by `drag.py`. -/
noncomputable def airframe (a : AircraftRow) : Drag.Airframe ℝ where
  area := real a.area
  span := real a.span
  sweep := real a.sweep
  tc := a.tc.map real
  mtow := real a.mtow
  rear := a.rear

/-- Entries read from the drag-polar record by `drag.py`. -/
noncomputable def polarParams (p : PolarRow) : Drag.Polar ℝ where
  cd0 := real p.cd0
  k := real p.k
  lambdaF := real p.lambdaF
  cfc := real p.cfc
  sfs := real p.sfs

/-- `fuel.py:82-90`. -/
noncomputable def scale : Option (ℕ × Option ℕ) → ℝ
  | none => 1
  | some (n, none) => real n
  | some (n, some d) => real n / real d

/-- The numbers read by `FuelFlow.at_thrust`. -/
noncomputable def fuelParams (f : FuelParts) : Fuel.Params NR where
  scale := .val (scale f.model.2)
  c1 := .val (real f.model.1.c1)
  c2 := .val (real f.model.1.c2)
  c3 := .val (real f.model.1.c3)
  maxThrust := cell f.eng.maxThrust
  number := .val (real f.ac.number)

/-- One group of LTO columns in the order idle, approach, climb-out, take-off. -/
noncomputable def quad (q : Quad) : Fin 4 → ℝ := ![real q.idl, real q.app, real q.cout, real q.toff]

/-- The numbers read by the `Emission` methods. -/
noncomputable def emissionParams (a : AircraftRow) (e : EngineRow) : Emission.Params ℝ where
  number := real a.number
  ff := quad e.ff
  nox := quad e.nox
  co := quad e.ei_co
  hc := quad e.hc

end Verif.Construct
