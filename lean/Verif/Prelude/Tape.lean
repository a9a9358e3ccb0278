import Verif.Prelude.Overflow
import Mathlib.Data.Real.Sign

/-!
# Derivatives on a machine that overflows

What `jax.jvp`, `jax.grad` (`/repo/openap/jax.py:10-18`), `casadi.jtimes` and `casadi.gradient` compute
when numbers overflow (`Prelude/Overflow`). A value comes with a tape: the sequence of linear steps by
which its tangent is obtained from the tangents of the inputs. Going forward evaluates the tape, going
back sends a cotangent through it. Every step multiplies (or divides) by one number, so that it is the
same function in both directions. Constants have no tape at all: both libraries skip them, so that no
zero tangent of a constant meets an infinity. The rules are those of `Prelude/Dual` and
`Prelude/Gradient`; where JAX and CasADi order a product differently (`log`, `/`), the type says which
library it is. A shared subexpression is sent back once for each of its uses, where the libraries first
add up the cotangents of all uses; a NaN reaches the same inputs either way, and without overflow the
sums are the same.
-/

namespace Verif

/-- Linear steps on tangents, from the inputs `ι`. -/
inductive Tape (Ω : ℝ) (ι : Type) where
  | input (i : ι)
  | scale (f : XR Ω → XR Ω) (s : Tape Ω ι)
  | add (s t : Tape Ω ι)

namespace Tape
open XR
variable {Ω : ℝ} {ι : Type}

/-- Forward: the tangent of the result from the tangents of the inputs. -/
noncomputable def forward (v : ι → XR Ω) : Tape Ω ι → XR Ω
  | input i => v i
  | scale f s => f (forward v s)
  | add s t => forward v s + forward v t

open Classical in
/-- Backward: what a cotangent of the result contributes to the gradient. -/
noncomputable def backward : XR Ω → Tape Ω ι → ι → XR Ω
  | ct, input i => fun j => if j = i then ct else fin 0
  | ct, scale f s => backward (f ct) s
  | ct, add s t => fun j => backward ct s j + backward ct t j

end Tape

/-- A value with its tape; `none` for a constant. `ca` is true with CasADi, false with JAX. -/
structure XT (ca : Bool) (Ω : ℝ) (ι : Type) where
  p : XR Ω
  t : Option (Tape Ω ι)

namespace XT
open XR
variable {ca : Bool} {Ω : ℝ} {ι : Type}

/-- A number that is not differentiated. -/
def const (c : ℝ) : XT ca Ω ι := ⟨fin c, none⟩

/-- An input of the differentiated function. -/
def input (x : ℝ) (i : ι) : XT ca Ω ι := ⟨fin x, some (.input i)⟩

/-- An argument that is or is not differentiated. -/
def arg (x : ℝ) : Option ι → XT ca Ω ι
  | none => const x
  | some i => input x i

/-- `jax.jvp`, `casadi.jtimes`: the tangent of a result. -/
noncomputable def tangent (v : ι → XR Ω) (x : XT ca Ω ι) : XR Ω :=
  match x.t with
  | none => fin 0
  | some t => t.forward v

/-- `jax.grad`, `casadi.gradient`: the derivative of a result by the input `i`. -/
noncomputable def gradient (x : XT ca Ω ι) (i : ι) : XR Ω :=
  match x.t with
  | none => fin 0
  | some t => t.backward (fin 1) i

/-- The sum of two tapes. -/
def join : Option (Tape Ω ι) → Option (Tape Ω ι) → Option (Tape Ω ι)
  | none, t => t
  | s, none => s
  | some s, some t => some (.add s t)

/-- One more step. -/
def step (f : XR Ω → XR Ω) (s : Option (Tape Ω ι)) : Option (Tape Ω ι) := s.map (.scale f)

noncomputable instance : Add (XT ca Ω ι) := ⟨fun x y => ⟨x.p + y.p, join x.t y.t⟩⟩
noncomputable instance : Sub (XT ca Ω ι) := ⟨fun x y => ⟨x.p - y.p, join x.t (step (- ·) y.t)⟩⟩
noncomputable instance : Neg (XT ca Ω ι) := ⟨fun x => ⟨-x.p, step (- ·) x.t⟩⟩
noncomputable instance : Mul (XT ca Ω ι) :=
  ⟨fun x y => ⟨x.p * y.p, join (step (· * y.p) x.t) (step (x.p * ·) y.t)⟩⟩
/-- JAX: `g / y` and `-g * x * y ** -2`; CasADi: `g * (1 / y)` and `g * (-f / y)`. -/
noncomputable instance : Div (XT ca Ω ι) :=
  ⟨fun x y => ⟨x.p / y.p,
    if ca then join (step (· * (fin 1 / y.p)) x.t) (step (· * (-(x.p / y.p) / y.p)) y.t)
    else join (step (· / y.p) x.t) (step (fun g => -g * x.p * (fin 1 / (y.p * y.p))) y.t)⟩⟩
noncomputable instance : Pow (XT ca Ω ι) ℕ :=
  ⟨fun x n => ⟨x.p ^ n, if n = 0 then none else step (· * (fin n * x.p ^ (n - 1))) x.t⟩⟩
noncomputable instance : OfScientific (XT ca Ω ι) :=
  ⟨fun m s e => ⟨OfScientific.ofScientific m s e, none⟩⟩

/-- A unary primitive with its derivative. -/
noncomputable def lift (f df : XR Ω → XR Ω) (x : XT ca Ω ι) : XT ca Ω ι :=
  ⟨f x.p, step (· * df x.p) x.t⟩

open Classical in
/-- Weight of `x` in a maximum: 1 or 0, and `w` when both are equal. -/
noncomputable def weight (w : ℝ) (x y : XR Ω) : XR Ω :=
  fin (if gt x y then 1 else if gt y x then 0 else w)

/-- Maximum with weight `w` of a tie. -/
noncomputable def max (w : ℝ) (x y : XT ca Ω ι) : XT ca Ω ι :=
  ⟨maximum x.p y.p, join (step (· * weight w x.p y.p) x.t) (step (· * weight (1 - w) y.p x.p) y.t)⟩

/-- Minimum with weight `w` of a tie. -/
noncomputable def min (w : ℝ) (x y : XT ca Ω ι) : XT ca Ω ι :=
  ⟨minimum x.p y.p, join (step (· * weight w y.p x.p) x.t) (step (· * weight (1 - w) x.p y.p) y.t)⟩

open Classical in
/-- `jnp.where(a > c, x, y)` and `casadi.if_else`. Going forward the branch not chosen does not
matter to JAX, going back it receives a zero; CasADi multiplies with zero in both directions. -/
noncomputable def select (a c x y : XT ca Ω ι) : XT ca Ω ι :=
  let off : XR Ω → XR Ω := fun g => if ca then g * fin 0 else fin 0
  ⟨if gt a.p c.p then x.p else y.p,
    join (step (if gt a.p c.p then id else off) x.t) (step (if gt a.p c.p then off else id) y.t)⟩

/-- `jnp.power`, `casadi.power`. -/
noncomputable def power (x y : XT ca Ω ι) : XT ca Ω ι :=
  ⟨(ovf Ω).power x.p y.p,
    join (step (· * (y.p * (ovf Ω).power x.p (y.p - fin 1))) x.t)
      (step (· * ((ovf Ω).log x.p * (ovf Ω).power x.p y.p)) y.t)⟩

end XT

open XR XT in
/-- The JAX (`/repo/openap/backends/jax_backend.py:40-130`) and CasADi
(`/repo/openap/backends/casadi_backend.py:42-126`) backends on values with tapes; `w` is the weight of
ties. `interp` and `fmod`, which drag, thrust and fuel flow do not use, are not differentiated here, and
CasADi's `fmax` and `fmin` are taken to return NaN for a NaN operand, like JAX's (they return the other
operand). -/
noncomputable def tape (ca : Bool) (w Ω : ℝ) (ι : Type) : Backend (XT ca Ω ι) where
  sqrt := lift (ovf Ω).sqrt fun x => fin 0.5 / (ovf Ω).sqrt x
  exp := lift (ovf Ω).exp (ovf Ω).exp
  log := fun x => ⟨(ovf Ω).log x.p, step (if ca then (· * (fin 1 / x.p)) else (· / x.p)) x.t⟩
  power := XT.power
  sin := lift (ovf Ω).sin (ovf Ω).cos
  cos := lift (ovf Ω).cos fun x => -(ovf Ω).sin x
  tan := lift (ovf Ω).tan fun x => fin 1 + (ovf Ω).tan x * (ovf Ω).tan x
  arcsin := lift (ovf Ω).arcsin fun x => fin 1 / (ovf Ω).sqrt (fin 1 - x * x)
  arccos := lift (ovf Ω).arccos fun x => -(fin 1 / (ovf Ω).sqrt (fin 1 - x * x))
  arctan := lift (ovf Ω).arctan fun x => fin 1 / (fin 1 + x * x)
  arctan2 := fun y x => ⟨(ovf Ω).arctan2 y.p x.p,
    join (step (· * (x.p / (y.p * y.p + x.p * x.p))) y.t)
      (step (· * -(y.p / (y.p * y.p + x.p * x.p))) x.t)⟩
  abs := lift (ovf Ω).abs (ext (fun x => fin (Real.sign x)) (fin (-1)) (fin 1))
  whereGt := select
  maximum := XT.max w
  minimum := XT.min w
  clip := fun x lo hi => if ca then XT.max w lo (XT.min w x hi) else XT.min w (XT.max w x lo) hi
  interp := fun x xp fp => ⟨(ovf Ω).interp x.p (xp.map XT.p) (fp.map XT.p), none⟩
  fmod := fun x y => ⟨(ovf Ω).fmod x.p y.p, none⟩
  pi := const Real.pi

end Verif
