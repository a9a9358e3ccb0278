import Verif.Prelude.Backend

/-!
# What it means for backends and arrays to agree
-/

namespace Verif.Spec

/-- A computation parametrised by the backend gives one and the same result under NumPy,
JAX and CasADi. -/
def Agree {β : Sort*} (f : Backend ℝ → β) : Prop := f jax = f np ∧ f casadi = f np

/-- `F`, evaluated on arrays, acts index by index as `f` does on numbers. -/
def Elementwise₂ {ι : Type} (F : (ι → ℝ) → (ι → ℝ) → ι → ℝ) (f : ℝ → ℝ → ℝ) : Prop :=
  ∀ x y i, F x y i = f (x i) (y i)

/-- Three array arguments. -/
def Elementwise₃ {ι : Type} (F : (ι → ℝ) → (ι → ℝ) → (ι → ℝ) → ι → ℝ)
    (f : ℝ → ℝ → ℝ → ℝ) : Prop := ∀ x y z i, F x y z i = f (x i) (y i) (z i)

end Verif.Spec
