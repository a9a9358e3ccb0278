import Verif.Model.Registry

/-!
# The cached listing functions of `openap.prop`

`available_aircraft` (`/repo/openap/prop.py:27-45`), `aircraft_engine_options` (`prop.py:99-117`) and
`search_engine` (`prop.py:120-143`) are decorated with `functools.lru_cache()` of size 128. Each
returns a list that it has just built; the list is mutable, is stored in the function's own cache and
handed out again, uncopied, by later calls with an equal key.

The key is made of the arguments as written in the call (`functools._make_key`, `typed=False`): a
single positional argument of type exactly `int` or `str` is its own key; other positional arguments
form a sequence, compared by value; keyword arguments form another sequence together with the name.
So `f()`, `f(False)` and `f(use_synonym=False)` have three keys, `f(True)` and `f(1)` two, and
`f(use_synonym=True)` and `f(use_synonym=1)` one.

Modelled arguments: strings, integers and booleans; positional or under the parameter's name. Not
modelled: floats and other objects, unknown keywords, two arguments (these end in a `TypeError`).
-/

namespace Verif.Listing
open Verif.Tables Verif.Registry

/-- The three functions. -/
inductive Fn where
  | available
  | options
  | search
  deriving DecidableEq

/-- An argument. -/
inductive Arg where
  | str (s : Str)
  | int (n : ℤ)
  | bool (b : Bool)

/-- How the function is called: `f()`, `f(v)`, `f(name=v)`. -/
inductive Call where
  | none
  | pos (v : Arg)
  | kw (v : Arg)

/-- Python's `True == 1` and `False == 0`. -/
def ofBool (b : Bool) : ℤ := if b then 1 else 0

/-- `functools._make_key`: `plain` keys are the argument itself, the others are sequences. -/
inductive Key where
  | empty
  | plainStr (s : Str)
  | plainInt (n : ℤ)
  | seqNum (n : ℤ)
  | kwStr (s : Str)
  | kwNum (n : ℤ)
  deriving DecidableEq

/-- The key of a call. -/
def key : Call → Key
  | .none => .empty
  | .pos (.str s) => .plainStr s
  | .pos (.int n) => .plainInt n
  | .pos (.bool b) => .seqNum (ofBool b)
  | .kw (.str s) => .kwStr s
  | .kw (.int n) => .kwNum n
  | .kw (.bool b) => .kwNum (ofBool b)

/-- `if use_synonym:` -/
def truthy : Arg → Bool
  | .str s => !s.isEmpty
  | .int n => n != 0
  | .bool b => b

/-- The function bodies of `options` and `search` need a string: `ac.lower()` and `eng.strip()` of
anything else raise. -/
def body (db : DB) : Fn → Arg → Except PyError (Option (List Str))
  | .available, v => .ok (some (availableAircraft db (truthy v)))
  | .options, .str s => (engineOptions db s).map some
  | .search, .str s => .ok (searchEngine db s)
  | _, _ => .error .attributeError

/-- The undecorated functions: the list they build, `none` for Python's `None`. -/
def value (db : DB) : Fn → Call → Except PyError (Option (List Str))
  | .available, .none => body db .available (.bool false)
  | _, .none => .error .typeError
  | fn, .pos v => body db fn v
  | fn, .kw v => body db fn v

/-- First entry under a key. -/
def find {β : Type} (k : Key) : List (Key × β) → Option β
  | [] => none
  | (k', v) :: l => if k' = k then some v else find k l

/-- All lists that exist, and the caches (most recently used first; `none` stands for `None`). -/
structure State where
  heap : List (List Str)
  caches : Fn → List (Key × Option ℕ)

/-- A fresh interpreter. -/
def State.init : State := ⟨[], fun _ => []⟩

/-- Replace the cache of one function. -/
def setCache (s : State) (fn : Fn) (c : List (Key × Option ℕ)) : Fn → List (Key × Option ℕ) :=
  fun x => if x = fn then c else s.caches x

/-- A call of a decorated function: the address of the list. Exceptions are not cached. -/
def call (db : DB) (s : State) (fn : Fn) (c : Call) : Except PyError (Option ℕ) × State :=
  match find (key c) (s.caches fn) with
  | some o => (.ok o,
      ⟨s.heap, setCache s fn ((key c, o) :: (s.caches fn).filter (fun e => e.1 != key c))⟩)
  | none =>
    match value db fn c with
    | .error e => (.error e, s)
    | .ok none => (.ok none, ⟨s.heap, setCache s fn (((key c, none) :: s.caches fn).take 128)⟩)
    | .ok (some l) => (.ok (some s.heap.length),
        ⟨s.heap ++ [l], setCache s fn (((key c, some s.heap.length) :: s.caches fn).take 128)⟩)

/-- The caller changes a list it holds (`append`, `sort`, `remove`, …). -/
def write (s : State) (a : ℕ) (g : List Str → List Str) : State := ⟨s.heap.modify a g, s.caches⟩

/-- The list at an address. -/
def read (s : State) (a : ℕ) : Option (List Str) := s.heap[a]?

/-- What a program can do with these functions. -/
inductive Op where
  | call (fn : Fn) (c : Call)
  | write (a : ℕ) (g : List Str → List Str)

/-- One operation. -/
def step (db : DB) (s : State) : Op → State
  | .call fn c => (call db s fn c).2
  | .write a g => write s a g

/-- A sequence of operations. -/
def run (db : DB) (s : State) (ops : List Op) : State := ops.foldl (step db) s

end Verif.Listing
