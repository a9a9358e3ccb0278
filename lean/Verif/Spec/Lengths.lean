import Verif.Prelude.Shaped

/-! Specification of calls with numbers and vectors of various lengths. -/

namespace Verif.Spec
open Verif

/-- A number, a zero-dimensional array or a vector. -/
def Flat (v : Nd) : Prop := ∃ a, v = some a ∧ (a.shape = [] ∨ ∃ n, a.shape = [n])

/-- A vector of length `n`. -/
def HasLength (n : ℕ) (v : Nd) : Prop := ∃ a, v = some a ∧ a.shape = [n]

/-- Two of the arguments are vectors of different lengths, neither of length 1. -/
def Clash (l : List Nd) : Prop :=
  ∃ x ∈ l, ∃ y ∈ l, ∃ n m, n ≠ 1 ∧ m ≠ 1 ∧ n ≠ m ∧ HasLength n x ∧ HasLength m y

/-- A call on these arguments raises exactly when two lengths clash; otherwise it returns a vector of the
length of the vectors among the arguments, and a single number if there are none. -/
structure Aligned (l : List Nd) (v : Nd) : Prop where
  raises : v = none ↔ Clash l
  length : ¬ Clash l → ∀ n, n ≠ 1 → (HasLength n v ↔ ∃ x ∈ l, HasLength n x)
  number : (∀ x ∈ l, ∀ n, n ≠ 1 → ¬ HasLength n x) → ∃ a, v = some a ∧ (a.shape = [] ∨ a.shape = [1])

end Verif.Spec
