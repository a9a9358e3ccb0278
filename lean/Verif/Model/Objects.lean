import Verif.Model.Cache
import Verif.Model.Construct

/-!
# Which records the performance objects share

The constructors of `Model/Construct.lean` again, now with the identity of the mutable records
they keep. `prop.engine` is cached (`Model/Cache.lean`), so `FuelFlow.engine`
(`/repo/openap/fuel.py:58`) and `Emission.engine` (`emission.py:42`) may be one dictionary;
`prop.aircraft` (`prop.py:48`) and `yaml.safe_load` in `load_drag_model` (`drag.py:88`) make a
new dictionary per call. `Thrust` copies the numbers it needs (`thrust.py:65-75`), `Emission`
copies the engine count (`emission.py:37`), `_load_fuel_model` copies the coefficients and the scale
(`fuel.py:82-95`). All other numbers are read from the dictionaries when a method is called.

A record is a cell of a heap, an address is an index. Programs create objects, ask for records
and change records they can reach. A constructor that raises leaves the cache as it is by then.
Not modelled: programs that rebind attributes of an object; the WRAP table held by a `FuelFlow`,
which no modelled method reads.
-/

namespace Verif.Objects
open Verif.Tables Verif.Registry

/-- `Drag`: its aircraft record and its polar record (`drag.py:44-45`). -/
structure DragObj where
  ac : ℕ
  pol : ℕ
deriving DecidableEq

/-- `FuelFlow` (`fuel.py:51-65`): its aircraft record, its engine record, the numbers copied by its
`Thrust`, its `Drag`, and the coefficients and scale captured by the closure `func_fuel`. -/
structure FuelObj where
  ac : ℕ
  eng : ℕ
  thrust : AircraftRow × EngineRow
  drag : DragObj
  model : FuelRow × Option (ℕ × Option ℕ)
deriving DecidableEq

/-- What a program can hold: objects of the four classes, or a record returned by
`prop.aircraft` or `prop.engine`. -/
inductive Obj where
  | aircraft (a : ℕ)
  | engine (a : ℕ)
  | thrust (t : AircraftRow × EngineRow)
  | drag (d : DragObj)
  | fuel (f : FuelObj)
  | emission (ac : ℕ) (number : ℕ) (eng : ℕ)
deriving DecidableEq

/-- Engine records with their cache, aircraft records, polar records, and all that the program
has been given so far. -/
structure Store where
  eng : Cache.State (EngineRow × Str)
  ac : List AircraftRow
  pol : List PolarRow
  objs : List Obj

/-- A fresh interpreter. -/
def Store.empty : Store := ⟨⟨[], []⟩, [], [], []⟩

/-- A call: what it returns or raises, and the state it leaves. -/
abbrev M (β : Type) := Store → Except PyError β × Store

variable {β γ : Type}

/-- A call that returns. -/
def ret (x : β) : M β := fun s => (.ok x, s)

/-- A call that touches no record. -/
def lift (x : Except PyError β) : M β := fun s => (x, s)

/-- One call after another; an exception ends the sequence. -/
def andThen (m : M β) (k : β → M γ) : M γ := fun s =>
  match m s with
  | (.error e, s') => (.error e, s')
  | (.ok x, s') => k x s'

variable (db : DB)

/-- `prop.aircraft`, `prop.py:48-96`: a new record. -/
def aircraft (ac : Str) (useSynonym : Bool) : M (ℕ × AircraftRow) := fun s =>
  match Registry.aircraft db ac useSynonym with
  | .error e => (.error e, s)
  | .ok a => (.ok (s.ac.length, a), { s with ac := s.ac ++ [a] })

/-- `prop.engine`, `prop.py:146-183`: the cached record and what is in it now. (Addresses returned by
`Cache.call` are on the heap, so the last case does not occur.) -/
def engine (q : Str) : M (ℕ × (EngineRow × Str)) := fun s =>
  match Cache.call (Registry.engine db) s.eng q with
  | (.error e, c) => (.error e, { s with eng := c })
  | (.ok a, c) =>
    match Cache.read c a with
    | some r => (.ok (a, r), { s with eng := c })
    | none => (.error .runtimeError, { s with eng := c })

/-- `Thrust.__init__`, `thrust.py:42-75`. -/
def thrust (ac : Str) (eng : Option Str) (useSynonym : Option Bool) (forceEngine : Bool) :
    M (AircraftRow × EngineRow) :=
  andThen (aircraft db ac (useSynonym.getD false)) fun a =>
  andThen (engine db (upper (eng.getD a.2.default))) fun e =>
  if !forceEngine && !(a.2.options.any fun opt => isIn (upper opt) (upper e.2.2)) then
    lift (.error .valueError)
  else ret (a.2, e.2.1)

/-- `load_drag_model`, `drag.py:51-90`: a new record. -/
def polar (ac : Str) (useSynonym : Option Bool) : M ℕ := fun s =>
  match Construct.polar db ac useSynonym with
  | .error e => (.error e, s)
  | .ok p => (.ok s.pol.length, { s with pol := s.pol ++ [p] })

/-- `Drag.__init__`, `drag.py:39-46`. -/
def drag (ac : Str) (useSynonym : Option Bool) : M DragObj :=
  andThen (aircraft db (lower ac) (useSynonym.getD false)) fun a =>
  andThen (polar db (lower ac) useSynonym) fun p => ret ⟨a.1, p⟩

/-- `_load_fuel_model`, `fuel.py:67-95`; `e` is what is in the engine record of the object. -/
def fuelModel (ac engineType : Str) (e : EngineRow) : M (FuelRow × Option (ℕ × Option ℕ)) :=
  match Construct.fuelRow db ac with
  | some r =>
    if ac = Construct.defaultStr then ret (r, some (e.ff.toff, none))
    else if engineType ≠ upper r.engineType then
      andThen (engine db r.engineType) fun ref => ret (r, some (e.ff.toff, some ref.2.1.ff.toff))
    else ret (r, none)
  | none =>
    match Construct.fuelRow db Construct.defaultStr with
    | some r => ret (r, some (e.ff.toff, none))
    | none => lift (.error .indexError)

/-- `FuelFlow.__init__`, `fuel.py:49-65`. -/
def fuel (ac : Str) (eng : Option Str) (useSynonym : Option Bool) (forceEngine : Bool) : M FuelObj :=
  andThen (aircraft db (lower ac) (useSynonym.getD false)) fun a =>
  andThen (engine db (eng.getD a.2.default)) fun e =>
  andThen (thrust db ac (some (eng.getD a.2.default)) useSynonym forceEngine) fun t =>
  andThen (drag db ac useSynonym) fun d =>
  andThen (lift (Construct.wrap db ac useSynonym)) fun _ =>
  andThen (fuelModel db (lower ac) (upper (eng.getD a.2.default)) e.2.1) fun m =>
  ret ⟨a.1, e.1, t, d, m⟩

/-- `Emission.__init__`, `emission.py:34-42`. -/
def emission (ac : Str) (eng : Option Str) (useSynonym : Option Bool) : M (ℕ × ℕ × ℕ) :=
  andThen (aircraft db ac (useSynonym.getD false)) fun a =>
  andThen (engine db (eng.getD a.2.default)) fun e => ret (a.1, a.2.number, e.1)

/-- What a program asks for. -/
inductive Req where
  | aircraft (ac : Str) (useSynonym : Bool)
  | engine (q : Str)
  | thrust (ac : Str) (eng : Option Str) (useSynonym : Option Bool) (forceEngine : Bool)
  | drag (ac : Str) (useSynonym : Option Bool)
  | fuel (ac : Str) (eng : Option Str) (useSynonym : Option Bool) (forceEngine : Bool)
  | emission (ac : Str) (eng : Option Str) (useSynonym : Option Bool)

/-- What it gets. -/
def create : Req → M Obj
  | .aircraft ac syn => andThen (aircraft db ac syn) fun a => ret (.aircraft a.1)
  | .engine q => andThen (engine db q) fun e => ret (.engine e.1)
  | .thrust ac eng syn force => andThen (thrust db ac eng syn force) fun t => ret (.thrust t)
  | .drag ac syn => andThen (drag db ac syn) fun d => ret (.drag d)
  | .fuel ac eng syn force => andThen (fuel db ac eng syn force) fun f => ret (.fuel f)
  | .emission ac eng syn => andThen (emission db ac eng syn) fun e => ret (.emission e.1 e.2.1 e.2.2)

/-- What a program does: ask for something, or change a record. -/
inductive Op where
  | new (r : Req)
  | setEngine (a : ℕ) (g : EngineRow × Str → EngineRow × Str)
  | setAircraft (a : ℕ) (g : AircraftRow → AircraftRow)
  | setPolar (a : ℕ) (g : PolarRow → PolarRow)

/-- One step. An exception is caught by the program. -/
def step (s : Store) : Op → Store
  | .new r =>
    match create db r s with
    | (.ok o, s') => { s' with objs := s'.objs ++ [o] }
    | (.error _, s') => s'
  | .setEngine a g => { s with eng := Cache.write s.eng a g }
  | .setAircraft a g => { s with ac := s.ac.modify a g }
  | .setPolar a g => { s with pol := s.pol.modify a g }

/-- A program. -/
def run (s : Store) (ops : List Op) : Store := ops.foldl (step db) s

/-! ### What the methods of an object read -/

/-- The numbers the methods of an object depend on. -/
inductive View where
  | aircraft (a : AircraftRow)
  | engine (e : EngineRow × Str)
  | thrust (t : Thrust.Params NR)
  | drag (a : Drag.Airframe ℝ) (p : Drag.Polar ℝ)
  | fuel (f : Fuel.Params NR) (t : Thrust.Params NR) (a : Drag.Airframe ℝ) (p : Drag.Polar ℝ)
  | emission (e : Emission.Params ℝ)

/-- Numbers read by `drag.py:104-146`, `162-238`. -/
noncomputable def viewDrag (s : Store) (d : DragObj) : Option (Drag.Airframe ℝ × Drag.Polar ℝ) :=
  match s.ac[d.ac]?, s.pol[d.pol]? with
  | some a, some p => some (Construct.airframe a, Construct.polarParams p)
  | _, _ => none

/-- Numbers read by `fuel.py:92-111`. -/
noncomputable def viewFuel (s : Store) (f : FuelObj) : Option (Fuel.Params NR) :=
  match s.ac[f.ac]?, Cache.read s.eng f.eng with
  | some a, some e => some
    { scale := .val (Construct.scale f.model.2)
      c1 := .val (real f.model.1.c1)
      c2 := .val (real f.model.1.c2)
      c3 := .val (real f.model.1.c3)
      maxThrust := Construct.cell e.1.maxThrust
      number := .val (real a.number) }
  | _, _ => none

/-- What the methods of an object read in the present state. -/
noncomputable def view (s : Store) : Obj → Option View
  | .aircraft a => (s.ac[a]?).map .aircraft
  | .engine a => (Cache.read s.eng a).map .engine
  | .thrust t => some (.thrust (Construct.thrustParams t.1 t.2))
  | .drag d => (viewDrag s d).map fun x => .drag x.1 x.2
  | .fuel f =>
    match viewFuel s f, viewDrag s f.drag with
    | some p, some x => some (.fuel p (Construct.thrustParams f.thrust.1 f.thrust.2) x.1 x.2)
    | _, _ => none
  | .emission _ n e => (Cache.read s.eng e).map fun r => .emission
    { number := real n
      ff := Construct.quad r.1.ff
      nox := Construct.quad r.1.nox
      co := Construct.quad r.1.ei_co
      hc := Construct.quad r.1.hc }

end Verif.Objects
