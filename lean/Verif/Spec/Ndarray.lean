import Mathlib.Data.Real.Basic
import Mathlib.Data.List.OfFn

/-!
# Specification of element-wise behaviour

A call with scalars and length-`n` vectors is `n` scalar calls. A cell is what one of those
scalar calls gets for one argument.
-/

namespace Verif.Spec

/-- One argument of one scalar call. -/
inductive Cell where
  | str (s : String)
  | num (x : ℝ)

/-- The scalar method: positional and keyword arguments to a number. -/
abbrev ScalarMethod := List Cell → List (String × Cell) → ℝ

/-- The `i`-th scalar call of a vector call. -/
def at' {n : ℕ} (g : ScalarMethod) (xs : List (Fin n → Cell)) (ks : List (String × (Fin n → Cell)))
    (i : Fin n) : ℝ := g (xs.map fun x => x i) (ks.map fun k => (k.1, k.2 i))

end Verif.Spec
