import Verif.Model.Listing

/-!
# What Python programmers see of the listing functions (C146)
-/

namespace Verif.Spec
open Verif.Listing Verif.Tables Verif.Registry

/-- Two arguments that are equal in Python (`True == 1`, `False == 0`). -/
def PyEq : Arg → Arg → Prop
  | .str s, .str t => s = t
  | .int m, .int n => m = n
  | .bool a, .bool b => a = b
  | .int m, .bool b => (m = 1 ∧ b = true) ∨ (m = 0 ∧ b = false)
  | .bool b, .int m => (m = 1 ∧ b = true) ∨ (m = 0 ∧ b = false)
  | _, _ => False

/-- Two calls that the cache takes for the same: written the same way (no argument, positional, by
name) with equal arguments; positional arguments must in addition have the same type. -/
def SameCall : Call → Call → Prop
  | .none, .none => True
  | .pos v, .pos w => v = w
  | .kw v, .kw w => PyEq v w
  | _, _ => False

/-- The type codes with a file, with the synonyms on request. -/
def Codes (db : DB) (synonyms : Prop) (r : Option (List Str)) : Prop :=
  (synonyms → r = some (db.aircraft.map (·.1) ++ db.aircraftSyn.map (·.1))) ∧
  (¬ synonyms → r = some (db.aircraft.map (·.1)))

/-- The list a function is documented to return: the type codes with a file, with the synonyms on
request (any argument that is not empty, zero or `False`); the engine options of an aircraft file; the
engine names that start with the request in upper case (`None` if there is none). -/
def Documented (db : DB) : Fn → Call → Option (List Str) → Prop
  | .available, .none, r => Codes db False r
  | .available, .pos (.bool b), r => Codes db (b = true) r
  | .available, .kw (.bool b), r => Codes db (b = true) r
  | .available, .pos (.int n), r => Codes db (n ≠ 0) r
  | .available, .kw (.int n), r => Codes db (n ≠ 0) r
  | .available, .pos (.str s), r => Codes db (s ≠ []) r
  | .available, .kw (.str s), r => Codes db (s ≠ []) r
  | .options, .pos (.str s), r => ∃ a, aircraft db s false = .ok a ∧ r = some a.options
  | .options, .kw (.str s), r => ∃ a, aircraft db s false = .ok a ∧ r = some a.options
  | .search, .pos (.str s), r => r = searchEngine db s
  | .search, .kw (.str s), r => r = searchEngine db s
  | _, _, _ => False

/-- The exceptions: a missing argument, one that is not a string, an aircraft without a file. -/
def Refused (db : DB) : Fn → Call → PyError → Prop
  | .available, _, _ => False
  | _, .none, e => e = .typeError
  | _, .pos (.int _), e => e = .attributeError
  | _, .pos (.bool _), e => e = .attributeError
  | _, .kw (.int _), e => e = .attributeError
  | _, .kw (.bool _), e => e = .attributeError
  | .options, .pos (.str s), e => aircraft db s false = .error e
  | .options, .kw (.str s), e => aircraft db s false = .error e
  | .search, _, _ => False

/-- The writes to one list in a sequence of operations, applied in order. -/
def replay (a : ℕ) : List Op → List Str → List Str
  | [], l => l
  | .call _ _ :: ops, l => replay a ops l
  | .write b g :: ops, l => replay a ops (if b = a then g l else l)

end Verif.Spec
