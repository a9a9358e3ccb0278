import Verif.Prelude.Dual
import Mathlib.Analysis.Calculus.FDeriv.Basic

/-!
# What a derivative computed by JAX should be
-/
namespace Verif.Spec

/-- `D` is what differentiation of `f` at `x` in direction `v` should return: `f` is
differentiable at `x`, the value is `f x`, and the tangent is the derivative applied to `v`. -/
def ExactJvp {E : Type} [NormedAddCommGroup E] [NormedSpace ℝ E] (f : E → ℝ) (x v : E)
    (D : Dual) : Prop :=
  DifferentiableAt ℝ f x ∧ D.p = .val (f x) ∧ D.t = .val (fderiv ℝ f x v)

/-- A quantity is either away from the kink at `c` or stays at `c`. -/
def Clear {E : Type} [TopologicalSpace E] (f : E → ℝ) (x : E) (c : ℝ) : Prop :=
  f x ≠ c ∨ ∀ᶠ y in nhds x, f y = c

/-- The tangent is not a finite number. -/
def NoTangent (D : Dual) : Prop := D.t = .nan

end Verif.Spec
