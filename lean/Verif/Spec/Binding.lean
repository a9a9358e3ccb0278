import Verif.Model.Binding

/-!
# What a call passes

The reading of a call independent of the constructors: which value is passed for a parameter
of a documented signature, and whether the call is legal for it.
-/

namespace Verif.Binding.Spec
open Verif.Tables

/-- The value passed for the parameter `n` when the parameters are, in order, `names`: the
positional argument in its place, else the keyword argument. -/
def given (names : List String) (a : Args) (n : String) : Option Val :=
  (Dict.get n (names.zip a.pos)).or (a.kw.get n)

/-- No more positional arguments than parameters, none of them repeated by keyword, and
`self` is not passed by keyword. -/
def Legal (names : List String) (a : Args) : Prop :=
  a.pos.length ≤ names.length ∧ a.kw.get "self" = none ∧
    ∀ n ∈ names.take a.pos.length, a.kw.get n = none

/-- What counts as true: everything but `None`, `False`, the number 0 and the empty string. -/
def counts (v : Val) : Bool := decide (v ∉ [.none, .bool false, .int 0, .str []])

/-- The backend an object ends up with: the one passed, unless it counts as false. -/
def chosen : Option Val → Val
  | some v => if counts v then v else .backend .numpy
  | none => .backend .numpy

/-- An engine argument: absent or `None` asks for the default engine. -/
inductive EngineArg : Option Val → Option Str → Prop
  | absent : EngineArg none none
  | none : EngineArg (some .none) none
  | name (s : Str) : EngineArg (some (.str s)) (some s)

/-- Truth value of a keyword that defaults to `False`. -/
def flag (k : String) (a : Args) : Bool := ((a.kw.get k).map counts).getD false

/-- The keyword `use_synonym`, if given. -/
def synonym (a : Args) : Option Bool := (a.kw.get "use_synonym").map counts

/-- Two calls with the same positional arguments whose keyword arguments agree on `names`. -/
def SameOn (names : List String) (a a' : Args) : Prop :=
  a.pos = a'.pos ∧ ∀ n ∈ names, a.kw.get n = a'.kw.get n

end Verif.Binding.Spec
