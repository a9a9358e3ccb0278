import Verif.Model.Decorated

/-!
# Specification of calls with arrays of any shape

Shapes and indices are written last axis first (`Prelude/Shaped.lean`). The arrays considered have
the shape `u` preceded by `r` axes of length 1.
-/

namespace Verif.Spec
open Verif Verif.Decorated

/-- What a user passes for one argument: a number (or nothing, the default being a number), an
array with one element, or an array of the common shape. `x i` is the number that belongs to
index `i`. -/
inductive Operand (u : List ℕ) (r : ℕ) : Arg → Bool → (List ℕ → ℝ) → Prop
  | number (y : ℝ) (given : Bool) : Operand u r ⟨Nd.scalar y, given⟩ false (fun _ => y)
  | single (g : List ℕ → ℝ) : Operand u r ⟨some ⟨false, [1], g⟩, true⟩ false (fun _ => g [0])
  | array (g : List ℕ → ℝ) :
      Operand u r ⟨some ⟨false, u ++ List.replicate r 1, g⟩, true⟩ true
        (fun i => g (i ++ List.replicate r 0))

/-- The result of the call: an array of shape `u` with elements `x`, or, when no argument was an
array, the number `x`. -/
def Elementwise (u : List ℕ) (full : Bool) (v : Nd) (x : List ℕ → ℝ) : Prop :=
  if full then ∃ g, v = some ⟨false, u, g⟩ ∧ ∀ i, i.length = u.length → g i = x i
  else ∃ g, v = some ⟨false, [], g⟩ ∧ ∀ i, i.length = u.length → x i = g []

/-- A number, or a column: an array of shape `(n, 1)` with entries `x 0, ..., x (n - 1)`. -/
inductive ColumnOperand (n : ℕ) : Arg → Bool → (ℕ → ℝ) → Prop
  | number (y : ℝ) (given : Bool) : ColumnOperand n ⟨Nd.scalar y, given⟩ false (fun _ => y)
  | column (g : List ℕ → ℝ) :
      ColumnOperand n ⟨some ⟨false, [1, n], g⟩, true⟩ true (fun i => g [0, i])

/-- An array of shape `(n,)`. -/
def IsVector (n : ℕ) (v : Nd) (x : ℕ → ℝ) : Prop :=
  ∃ g, v = some ⟨false, [n], g⟩ ∧ ∀ i, g [i] = x i

/-- An array of shape `(n, n)` with the entry `M i j` in row `i` and column `j`. -/
def IsMatrix (n : ℕ) (v : Nd) (M : ℕ → ℕ → ℝ) : Prop :=
  ∃ g, v = some ⟨false, [n, n], g⟩ ∧ ∀ i j, g [j, i] = M i j

end Verif.Spec
