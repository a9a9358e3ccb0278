import Verif.Model.Decorated

/-!
# Specification of calls with the JAX backend

Shapes and indices are written last axis first (`Prelude/Shaped.lean`).
-/

namespace Verif.Spec
open Verif Verif.Decorated

/-- What a user passes for one argument: a number (or nothing, the default being a number), a JAX
scalar, a NumPy or JAX array with one element, or a NumPy or JAX array of the common shape. `x i`
is the number that belongs to index `i`. -/
inductive JaxOperand (u : List ℕ) : Arg → Bool → (List ℕ → ℝ) → Prop
  | number (y : ℝ) (given : Bool) : JaxOperand u ⟨Nd.scalar y, given⟩ false (fun _ => y)
  | scalar (g : List ℕ → ℝ) : JaxOperand u ⟨some ⟨true, [], g⟩, true⟩ false (fun _ => g [])
  | single (jx : Bool) (g : List ℕ → ℝ) :
      JaxOperand u ⟨some ⟨jx, [1], g⟩, true⟩ false (fun _ => g [0])
  | array (jx : Bool) (g : List ℕ → ℝ) :
      JaxOperand u ⟨some ⟨jx, u, g⟩, true⟩ true g

/-- A JAX array of shape `u` with the elements `x`. -/
def JaxArray (u : List ℕ) (v : Nd) (x : List ℕ → ℝ) : Prop :=
  ∃ g, v = some ⟨true, u, g⟩ ∧ ∀ i, List.Forall₂ (· < ·) i u → g i = x i

/-- A Python number (`traced = false`) or a JAX scalar, such as the value that `jax.grad` and
`jax.jit` put in place of an argument (`traced = true`). -/
inductive Plain : Arg → Bool → ℝ → Prop
  | number (y : ℝ) (given : Bool) : Plain ⟨Nd.scalar y, given⟩ false y
  | traced (g : List ℕ → ℝ) : Plain ⟨some ⟨true, [], g⟩, true⟩ true (g [])

/-- A JAX scalar if `s`, a JAX array with one element, shape `(1,)`, otherwise. `jax.grad` accepts
only functions that return scalars. -/
def JaxScalar (s : Bool) (v : Nd) (y : ℝ) : Prop :=
  ∃ g, v = some ⟨true, if s then [] else [1], g⟩ ∧ g (if s then [] else [0]) = y

end Verif.Spec
