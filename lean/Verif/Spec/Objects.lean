import Verif.Model.Objects

/-!
# What an object should read

The stateless constructors of `Model/Construct.lean` say which file and table entries an object is
to work with. `alone` turns them into the numbers its methods read.
-/

namespace Verif.Objects
open Verif.Tables Verif.Registry

/-- The numbers an object reads when nothing else has happened. -/
noncomputable def alone (db : DB) : Req → Except PyError View
  | .aircraft ac syn => (Registry.aircraft db ac syn).map .aircraft
  | .engine q => (Registry.engine db q).map .engine
  | .thrust ac eng syn force => (Construct.thrust db ac eng syn force).map fun p =>
      .thrust (Construct.thrustParams p.1 p.2)
  | .drag ac syn => (Construct.drag db ac syn).map fun p =>
      .drag (Construct.airframe p.1) (Construct.polarParams p.2)
  | .fuel ac eng syn force => (Construct.fuel db ac eng syn force).map fun f =>
      .fuel (Construct.fuelParams f) (Construct.thrustParams f.thrust.1 f.thrust.2)
        (Construct.airframe f.drag.1) (Construct.polarParams f.drag.2)
  | .emission ac eng syn => (Construct.emission db ac eng syn).map fun p =>
      .emission (Construct.emissionParams p.1 p.2)

/-- The engine record behind an object. -/
def Obj.engine? : Obj → Option ℕ
  | .engine a => some a
  | .fuel f => some f.eng
  | .emission _ _ e => some e
  | _ => none

/-- The aircraft records behind an object: a `FuelFlow` has one of its own and one in its `Drag`. -/
def Obj.aircrafts : Obj → List ℕ
  | .aircraft a => [a]
  | .drag d => [d.ac]
  | .fuel f => [f.ac, f.drag.ac]
  | .emission a _ _ => [a]
  | _ => []

/-- The polar records behind an object. -/
def Obj.polars : Obj → List ℕ
  | .drag d => [d.pol]
  | .fuel f => [f.drag.pol]
  | _ => []

/-- An operation that changes no record. -/
def Op.Reads : Op → Prop
  | .new _ => True
  | _ => False

/-- An operation that does not change a record behind the object. -/
def Op.Spares (o : Obj) : Op → Prop
  | .new _ => True
  | .setEngine a _ => o.engine? ≠ some a
  | .setAircraft a _ => a ∉ o.aircrafts
  | .setPolar a _ => a ∉ o.polars

/-- The engine name given, or the default in the aircraft file. -/
def engName (db : DB) (ac : Str) (eng : Option Str) (useSynonym : Option Bool) : List Str :=
  match eng, Registry.aircraft db ac (useSynonym.getD false) with
  | some e, _ => [e]
  | none, .ok a => [a.default]
  | none, .error _ => []

/-- The string under which an object's engine record is asked for. -/
def key (db : DB) : Req → List Str
  | .engine q => [q]
  | .fuel ac eng syn _ => engName db ac eng syn
  | .emission ac eng syn => engName db ac eng syn
  | _ => []

/-- All strings under which `prop.engine` may be called by a request. -/
def asks (db : DB) : Req → List Str
  | .engine q => [q]
  | .thrust ac eng syn _ => (engName db ac eng syn).map upper
  | .fuel ac eng syn _ => engName db ac eng syn ++ (engName db ac eng syn).map upper ++
      (Construct.fuelRow db (lower ac)).toList.map (·.engineType)
  | .emission ac eng syn => engName db ac eng syn
  | _ => []

end Verif.Objects
