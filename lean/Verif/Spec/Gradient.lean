import Verif.Prelude.Gradient
import Verif.Spec.Autodiff

/-!
# What a gradient computed by JAX or CasADi should be
-/
namespace Verif.Spec

/-- The value is `f x` and the tangent is the derivative of `f` at `x` in direction `v`. -/
def ExactTangent {E : Type} [NormedAddCommGroup E] [NormedSpace ℝ E] (f : E → ℝ) (x v : E)
    (A : Jet NR) : Prop :=
  DifferentiableAt ℝ f x ∧ A.p = .val (f x) ∧ A.t = .val (fderiv ℝ f x v)

/-- The value is `f x`, and a cotangent `c` of it comes back to input `i` as `c` times the partial
derivative of `f` with respect to that input. With `c = 1` this is the gradient. -/
def ExactGrad {ι : Type} [Fintype ι] [DecidableEq ι] (f : (ι → ℝ) → ℝ) (x : ι → ℝ)
    (A : Jet (Pull ι)) : Prop :=
  DifferentiableAt ℝ f x ∧ A.p = .val (f x) ∧
    ∀ (c : ℝ) (i : ι), A.t (.val c) i = .val (c * fderiv ℝ f x (Pi.single i 1))

/-- A way to differentiate at `x`: the kind of number the code runs on, its operators and functions,
how numbers of the data files enter, when a result is right, and whether interpolation holds the end
values outside its table. -/
structure Mode {E : Type} [NormedAddCommGroup E] [NormedSpace ℝ E] (x : E) where
  N : Type
  [add : Add N] [sub : Sub N] [mul : Mul N] [div : Div N] [neg : Neg N] [pow : Pow N ℕ]
  [sci : OfScientific N]
  b : Backend N
  k : ℝ → N
  Ex : (E → ℝ) → N → Prop
  holdsEnds : Prop

attribute [instance] Mode.add Mode.sub Mode.mul Mode.div Mode.neg Mode.pow Mode.sci

section
variable {E : Type} [NormedAddCommGroup E] [NormedSpace ℝ E]

/-- `jax.jvp` in direction `v` (C118). -/
noncomputable def jaxForward (x v : E) : Mode x where
  N := Dual
  b := jaxDual
  k := Dual.const
  Ex := fun f A => ExactJvp f x v A
  holdsEnds := True

/-- `casadi.jtimes` in direction `v`. -/
noncomputable def casadiForward (w : ℝ) (x v : E) : Mode x where
  N := Jet NR
  b := casadiJet w NR
  k := Jet.const
  Ex := fun f A => ExactTangent f x v A
  holdsEnds := False

variable {ι : Type} [Fintype ι] [DecidableEq ι]

/-- `jax.grad`, `jax.vjp`. -/
noncomputable def jaxReverse (x : ι → ℝ) : Mode x where
  N := Jet (Pull ι)
  b := jaxJet (Pull ι)
  k := Jet.const
  Ex := fun f A => ExactGrad f x A
  holdsEnds := True

/-- `casadi.gradient`, `casadi.jacobian` in reverse mode. -/
noncomputable def casadiReverse (w : ℝ) (x : ι → ℝ) : Mode x where
  N := Jet (Pull ι)
  b := casadiJet w (Pull ι)
  k := Jet.const
  Ex := fun f A => ExactGrad f x A
  holdsEnds := False

/-- The ways to differentiate with respect to finitely many inputs `ι`. -/
inductive Autodiff (x : ι → ℝ) : Mode x → Prop where
  | jaxForward (v : ι → ℝ) : Autodiff x (jaxForward x v)
  | jaxReverse : Autodiff x (jaxReverse x)
  | casadiForward (w : ℝ) (v : ι → ℝ) : Autodiff x (casadiForward w x v)
  | casadiReverse (w : ℝ) : Autodiff x (casadiReverse w x)
end

/-- Input number `i`: its cotangent is the contribution to entry `i` of the gradient. -/
noncomputable def input {ι : Type} [DecidableEq ι] (x : ι → ℝ) (i : ι) : Jet (Pull ι) :=
  ⟨.val (x i), fun c j => if j = i then c else .val 0⟩

end Verif.Spec
