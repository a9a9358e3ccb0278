import Verif.Prelude.Py
import Mathlib.Data.Real.Basic
import Mathlib.Data.List.OfFn

/-!
# `openap/extra/__init__.py`: the decorator `ndarrayconvert`

`/repo/openap/extra/__init__.py:8-96`. Python values are reduced to what the decorator looks at:
strings, objects of a symbolic library, zero-dimensional numbers, (nested, regular) lists and
NumPy arrays given by shape and row-major data. Lists of mixed depth and arrays of objects are
not modelled.
-/

namespace Verif.Ndarray

/-- A Python value as seen by the decorator. -/
inductive PyVal where
  | str (s : String)
  | sym (id : ℕ)
  | num (x : ℝ)
  | lst (shape : List ℕ) (data : List ℝ)
  | arr (shape : List ℕ) (data : List ℝ)

/-- What the wrapped function returns: one value or a tuple. -/
inductive Res where
  | one (v : PyVal)
  | tup (vs : List PyVal)

/-- A method with positional and keyword arguments. -/
abbrev Method := List PyVal → List (String × PyVal) → Except PyError Res

/-- `_is_symbolic_type`, `extra/__init__.py:8-24`. -/
def isSymbolic : PyVal → Bool
  | .sym _ => true
  | _ => false

/-- `arr.reshape(-1, 1) if column else arr`, `extra/__init__.py:59`, `62`. -/
def shapeArg (column : Bool) (shape : List ℕ) (data : List ℝ) : PyVal :=
  if column then .arr [data.length, 1] data else .arr shape data

/-- Conversion of one argument, `extra/__init__.py:55-62` and `66-73`: strings are kept, values
of dimension 0 become one-element arrays, everything else goes through `np.asarray`. (A symbolic
value does not get here.) -/
def convertArg (column : Bool) : PyVal → PyVal
  | .str s => .str s
  | .sym i => .sym i
  | .num x => shapeArg column [1] [x]
  | .lst shape data => shapeArg column shape data
  | .arr [] data => shapeArg column [1] data
  | .arr shape data => shapeArg column shape data

/-- `to_scalar`, `extra/__init__.py:78-85`; `squeeze` removes the dimensions of size 1. -/
def toScalar (column : Bool) : PyVal → PyVal
  | .arr shape [x] => let _ := shape; .num x
  | .arr shape data =>
    if !column && decide (1 < shape.length) then .arr (shape.filter (· ≠ 1)) data
    else .arr shape data
  | v => v

/-- `extra/__init__.py:87-89`. -/
def toScalarRes (column : Bool) : Res → Res
  | .one v => .one (toScalar column v)
  | .tup vs => .tup (vs.map (toScalar column))

/-- `wrapper`, `extra/__init__.py:45-89`. -/
def wrapper (column : Bool) (f : Method) : Method := fun args kwargs =>
  if args.any isSymbolic then f args kwargs
  else if (kwargs.map Prod.snd).any isSymbolic then f args kwargs
  else
    (f (args.map (convertArg column)) (kwargs.map fun p => (p.1, convertArg column p.2))).map
      (toScalarRes column)

end Verif.Ndarray
