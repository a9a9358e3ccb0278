import Verif.Prelude.Ints

/-! What is passed to a method as an array of integers or of doubles. -/

namespace Verif.Spec
open Verif.INum

/-- An argument: an entry of an array of doubles or of integers, or the default 0 left out. A Python
integer passed as an argument is made an array of type `int64` by the decorator
(`/repo/openap/extra/__init__.py:57`), a list of integers as well (`:61`). -/
def Arg : INum → Prop
  | flt _ => True
  | int d n => d.Fits n
  | py n => n = 0
  | err => False

/-- If both arguments are integers, the product is representable in the type that NumPy computes it
in. -/
def ProductFits : INum → INum → Prop
  | int d m, int e n => ∀ t, d.promote e = some t → t.Fits (m * n)
  | _, _ => True

/-- A float, a Python integer or an entry of a list of Python integers of magnitude up to `10 ^ 9`. -/
def PythonNumber : INum → Prop
  | flt _ => True
  | int d n => d = .i64 ∧ |n| ≤ 10 ^ 9
  | _ => False

end Verif.Spec
