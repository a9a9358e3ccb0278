import Verif.Model.Tables

/-!
# `openap/addon/bada3.py`: merging a BADA3 record into an aircraft record

`/repo/openap/addon/bada3.py:25-39`. A dictionary is a list of entries in insertion order; its values
are dictionaries or anything else (`leaf`, of arbitrary type `L`). `prop.aircraft` returns a fresh
dictionary on every call, so the in-place update is a function of its arguments.
-/

namespace Verif.Bada3
open Verif.Tables

/-- A Python value: a dictionary or something else. -/
inductive Val (L : Type) where
  | leaf (x : L)
  | dict (entries : List (Str × Val L))

variable {L : Type}

/-- `d.get(key)`. -/
def get? : List (Str × Val L) → Str → Option (Val L)
  | [], _ => none
  | e :: d, k => if e.1 = k then some e.2 else get? d k

/-- `d[key] = value`: replaces in place or appends. -/
def put : List (Str × Val L) → Str → Val L → List (Str × Val L)
  | [], k, v => [(k, v)]
  | e :: d, k, v => if e.1 = k then (k, v) :: d else e :: put d k v

/-- `deep_update`, `bada3.py:25-35`. -/
def deepUpdate (target : List (Str × Val L)) : List (Str × Val L) → List (Str × Val L)
  | [] => target
  | (k, .dict u) :: updates =>
    match get? target k with
    | some (.dict t) => deepUpdate (put target k (.dict (deepUpdate t u))) updates
    | _ => deepUpdate (put target k (.dict u)) updates
  | (k, .leaf x) :: updates => deepUpdate (put target k (.leaf x)) updates
termination_by updates => sizeOf updates

/-- `bada3_aircraft`, `bada3.py:37-39`, as a function of the two records. -/
def bada3Aircraft (aircraft loaded : List (Str × Val L)) : List (Str × Val L) :=
  deepUpdate aircraft loaded

end Verif.Bada3
