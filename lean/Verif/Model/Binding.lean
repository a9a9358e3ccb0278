import Verif.Model.Construct
import Verif.Model.Gen

/-!
# Calls: how arguments reach the constructors

Python's binding of positional and keyword arguments, and the bodies of the constructors as
far as they pass arguments on: `openap/base.py`, `drag.py:26-49`, `thrust.py:26-75`,
`fuel.py:22-65`, `emission.py:18-42`, `kinematic.py:39-66`, the subclasses of
`openap/casadi.py:31-56` and `openap/jax.py:40-65`, `backends/__init__.py:32-68`, and the
keyword dictionaries of `gen.py`. What the constructors do with the records they select is
in `Model/Construct.lean`.

Values other than `None`, booleans, integers, strings and backends are not modelled.
Dictionaries are lists of pairs; of a repeated key, which Python cannot have, the first
counts. Warnings are not modelled.
-/

namespace Verif.Binding
open Verif.Tables Verif.Registry

/-- The three backend classes, `backends/__init__.py:24-26`. -/
inductive Kind where
  | numpy
  | casadi
  | jax
  deriving DecidableEq, Repr

/-- Python values passed to the constructors. `object` is the instance bound to `self`. -/
inductive Val where
  | none
  | bool (b : Bool)
  | int (n : ℤ)
  | str (s : Str)
  | backend (k : Kind)
  | object
  deriving DecidableEq

/-- Truth value: `None`, `False`, `0` and `""` are false. -/
def Val.truthy : Val → Bool
  | .none => false
  | .bool b => b
  | .int n => n != 0
  | .str s => !s.isEmpty
  | .backend _ => true
  | .object => true

/-- A string method such as `.lower()` or `.upper()` looked up on a value. -/
def Val.asStr : Val → Except PyError Str
  | .str s => .ok s
  | _ => .error .attributeError

/-- Keyword arguments. -/
abbrev Dict (β : Type) := List (String × β)

/-- `d.get(k)`. -/
def Dict.get {β : Type} (k : String) : Dict β → Option β
  | [] => none
  | (k', v) :: d => if k' = k then some v else Dict.get k d

/-- What is written between the parentheses of a call. -/
structure Args where
  pos : List Val := []
  kw : Dict Val := []

/-- The formal parameters in front of `**kwargs`, with their defaults. -/
abbrev Sig := List (String × Option Val)

/-- Binding of the formal parameters: too many positional arguments, a parameter given twice
and a missing argument raise `TypeError`. -/
def bindArgs : Sig → List Val → Dict Val → Except PyError (List Val)
  | [], [], _ => .ok []
  | [], _ :: _, _ => .error .typeError
  | (n, _) :: ps, v :: vs, kw =>
    if (kw.get n).isSome then .error .typeError else (bindArgs ps vs kw).map (v :: ·)
  | (n, d) :: ps, [], kw =>
    match kw.get n with
    | some v => (bindArgs ps [] kw).map (v :: ·)
    | none => match d with
      | some v => (bindArgs ps [] kw).map (v :: ·)
      | none => .error .typeError

/-- What `**kwargs` receives. -/
def rest (ps : Sig) (kw : Dict Val) : Dict Val :=
  kw.filter fun e => decide (e.1 ∉ ps.map (·.1))

/-- `f(k=v, **d)`: a key of `d` repeated by an explicit keyword raises `TypeError`. -/
def withKw {β : Type} (k : String) (v : β) (d : Dict β) : Except PyError (Dict β) :=
  if (d.get k).isSome then .error .typeError else .ok ((k, v) :: d)

/-- `default_backend()`, `backends/__init__.py:62-68`. -/
def defaultBackend : Val := .backend .numpy

/-- `get_backend`, `backends/__init__.py:36-59`. The names are given as strings. -/
def getBackend (name : String := "numpy") : Except PyError Val :=
  if name = "numpy" then .ok (.backend .numpy)
  else if name = "casadi" then .ok (.backend .casadi)
  else if name = "jax" then .ok (.backend .jax)
  else .error .valueError

/-- `backend or default_backend()`, `base.py:24,52,88,118` and `aero.py:90`. -/
def orDefault (backend : Val) : Val := if backend.truthy then backend else defaultBackend

/-- Attributes set by the base classes. -/
structure Base where
  backend : Val
  /-- `self.aero.backend` -/
  aero : Val
  ac : Str
  deriving DecidableEq

/-- The bodies of the four `__init__` of `base.py` (lines 24-26, 52-54, 88-90, 118-120). -/
def baseBody (ac backend : Val) : Except PyError Base := do
  let b := orDefault backend
  let ac ← ac.asStr
  return { backend := b, aero := orDefault b, ac := lower ac }

/-- Signature of `DragBase.__init__`, `base.py:17`. -/
def sigDragBase : Sig := [("self", none), ("ac", none), ("backend", some .none)]

/-- Signatures of `ThrustBase`, `FuelFlowBase`, `EmissionBase`, `base.py:38-44,72-78,104-110`. -/
def sigBase : Sig :=
  [("self", none), ("ac", none), ("eng", some .none), ("backend", some .none)]

/-- `DragBase.__init__`. -/
def dragBase (a : Args) : Except PyError Base := do
  match ← bindArgs sigDragBase (.object :: a.pos) a.kw with
  | [_, ac, backend] => baseBody ac backend
  | _ => throw .typeError

/-- `ThrustBase.__init__`, `FuelFlowBase.__init__`, `EmissionBase.__init__`. -/
def engBase (a : Args) : Except PyError Base := do
  match ← bindArgs sigBase (.object :: a.pos) a.kw with
  | [_, ac, _, backend] => baseBody ac backend
  | _ => throw .typeError

/-- Signature of `prop.aircraft`, `prop.py:48`. -/
def sigAircraft : Sig := [("ac", none), ("use_synonym", some (.bool false))]

/-- `prop.aircraft(ac, **kwargs)`, called as in `drag.py:44`. -/
def aircraftCall (db : DB) (a : Args) : Except PyError AircraftRow := do
  match ← bindArgs sigAircraft a.pos a.kw with
  | [ac, syn] => aircraft db (← ac.asStr) syn.truthy
  | _ => throw .typeError

variable (db : DB)

/-- `kwargs.get("use_synonym", …)` when only its truth value is used. -/
def synonymOf (kwargs : Dict Val) : Option Bool := (kwargs.get "use_synonym").map Val.truthy

/-! ### `Drag` -/

/-- Attributes of a `Drag` object. -/
structure DragObj where
  base : Base
  aircraft : AircraftRow
  polar : PolarRow
  waveDrag : Val

/-- Signature of `Drag.__init__`, `drag.py:26-32`. -/
def sigDrag : Sig :=
  [("self", none), ("ac", none), ("wave_drag", some (.bool false)), ("backend", some .none)]

/-- `Drag.__init__`, `drag.py:40-49`. -/
def drag (a : Args) : Except PyError DragObj := do
  match ← bindArgs sigDrag (.object :: a.pos) a.kw with
  | [_, ac, waveDrag, backend] =>
    let kwargs := rest sigDrag a.kw
    let base ← dragBase { pos := [ac], kw := ← withKw "backend" backend kwargs }
    let r ← aircraftCall db { pos := [.str base.ac], kw := kwargs }
    let p ← Construct.polar db base.ac (synonymOf kwargs)
    return { base := base, aircraft := r, polar := p, waveDrag := waveDrag }
  | _ => throw .typeError

/-! ### `Thrust` -/

/-- Attributes of a `Thrust` object: those of the base class and the two records from which
the others are computed. -/
structure ThrustObj where
  base : Base
  records : AircraftRow × EngineRow

/-- Signature of `Thrust`, `FuelFlow` and `Emission` (`thrust.py:26-32`, `fuel.py:22-28`,
`emission.py:18-24`). -/
def sigEng : Sig :=
  [("self", none), ("ac", none), ("eng", some .none), ("backend", some .none)]

/-- `if eng is None: eng = aircraft["engine"]["default"]`, then a string method of `eng`. -/
def engineName (a : AircraftRow) : Val → Except PyError Str
  | .none => .ok a.default
  | v => v.asStr

/-- `Thrust.__init__`, `thrust.py:40-75`. -/
def thrust (a : Args) : Except PyError ThrustObj := do
  match ← bindArgs sigEng (.object :: a.pos) a.kw with
  | [_, ac, eng, backend] =>
    let kwargs := rest sigEng a.kw
    let base ← engBase { pos := [ac, eng], kw := ← withKw "backend" backend kwargs }
    let r ← aircraftCall db { pos := [ac], kw := kwargs }
    let forceEngine := ((kwargs.get "force_engine").getD (.bool false)).truthy
    let eng ← engineName r eng
    let e ← engine db (upper eng)
    if !forceEngine && !(r.options.any fun opt => isIn (upper opt) (upper e.2)) then
      throw .valueError
    return { base := base, records := (r, e.1) }
  | _ => throw .typeError

/-! ### `WRAP` -/

/-- Signature of `WRAP.__init__`, `kinematic.py:39`. -/
def sigWrap : Sig := [("self", none), ("ac", none)]

/-- `WRAP.__init__`, `kinematic.py:46-66`. -/
def wrap (a : Args) : Except PyError (List WrapRow) := do
  match ← bindArgs sigWrap (.object :: a.pos) a.kw with
  | [_, ac] => Construct.wrap db (← ac.asStr) (synonymOf (rest sigWrap a.kw))
  | _ => throw .typeError

/-! ### `FuelFlow` -/

/-- Attributes of a `FuelFlow` object. -/
structure FuelObj where
  base : Base
  aircraft : AircraftRow
  engine : EngineRow
  thrust : ThrustObj
  drag : DragObj
  wrap : List WrapRow
  model : FuelRow × Option (ℕ × Option ℕ)

/-- `FuelFlow.__init__`, `fuel.py:38-65`. The classes are those of `openap.thrust`,
`openap.drag` and `openap.kinematic`. -/
def fuelFlow (a : Args) : Except PyError FuelObj := do
  match ← bindArgs sigEng (.object :: a.pos) a.kw with
  | [_, ac, eng, backend] =>
    let kwargs := rest sigEng a.kw
    let base ← engBase { pos := [ac, eng], kw := ← withKw "backend" backend kwargs }
    let r ← aircraftCall db { pos := [.str base.ac], kw := kwargs }
    let eng ← engineName r eng
    let e ← engine db eng
    let t ← thrust db { pos := [ac, .str eng], kw := ← withKw "backend" base.backend kwargs }
    let d ← drag db { pos := [ac], kw := ← withKw "backend" base.backend kwargs }
    let w ← wrap db { pos := [ac], kw := kwargs }
    let m ← Construct.fuelModel db base.ac (upper eng) e.1
    return { base := base, aircraft := r, engine := e.1, thrust := t, drag := d, wrap := w,
             model := m }
  | _ => throw .typeError

/-! ### `Emission` -/

/-- Attributes of an `Emission` object. -/
structure EmissionObj where
  base : Base
  records : AircraftRow × EngineRow

/-- `Emission.__init__`, `emission.py:34-42`. -/
def emission (a : Args) : Except PyError EmissionObj := do
  match ← bindArgs sigEng (.object :: a.pos) a.kw with
  | [_, ac, eng, backend] =>
    let kwargs := rest sigEng a.kw
    let base ← engBase { pos := [ac, eng], kw := ← withKw "backend" backend kwargs }
    let r ← aircraftCall db { pos := [ac], kw := kwargs }
    let eng ← engineName r eng
    let e ← engine db eng
    return { base := base, records := (r, e.1) }
  | _ => throw .typeError

/-! ### The classes of `openap.casadi` and `openap.jax` -/

/-- Signature of the `Drag` subclasses, `casadi.py:34`, `jax.py:43`. -/
def sigSubDrag : Sig := [("self", none), ("ac", none)]

/-- Signature of the other subclasses, `casadi.py:41,48,55`, `jax.py:50,57,64`. -/
def sigSub : Sig := [("self", none), ("ac", none), ("eng", some .none)]

/-- `Drag.__init__` of `openap.casadi` (`k = casadi`, `casadi.py:34-35`) and `openap.jax`
(`k = jax`, `jax.py:43-44`). -/
def subDrag (k : Kind) (a : Args) : Except PyError DragObj := do
  match ← bindArgs sigSubDrag (.object :: a.pos) a.kw with
  | [_, ac] =>
    drag db { pos := [ac], kw := ← withKw "backend" (.backend k) (rest sigSubDrag a.kw) }
  | _ => throw .typeError

/-- `Thrust`, `FuelFlow` and `Emission` of `openap.casadi` and `openap.jax`:
`super().__init__(ac, eng, backend=…, **kwargs)`, `casadi.py:42,49,56`, `jax.py:51,58,65`. -/
def subEng {β : Type} (init : Args → Except PyError β) (k : Kind) (a : Args) :
    Except PyError β := do
  match ← bindArgs sigSub (.object :: a.pos) a.kw with
  | [_, ac, eng] =>
    init { pos := [ac, eng], kw := ← withKw "backend" (.backend k) (rest sigSub a.kw) }
  | _ => throw .typeError

/-- `openap.casadi.Thrust`, `openap.jax.Thrust`. -/
def subThrust (k : Kind) : Args → Except PyError ThrustObj := subEng (thrust db) k
/-- `openap.casadi.FuelFlow`, `openap.jax.FuelFlow`. -/
def subFuelFlow (k : Kind) : Args → Except PyError FuelObj := subEng (fuelFlow db) k
/-- `openap.casadi.Emission`, `openap.jax.Emission`. -/
def subEmission (k : Kind) : Args → Except PyError EmissionObj := subEng (emission db) k

end Verif.Binding
