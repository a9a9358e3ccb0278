import Verif.Prelude.Dual

/-!
# Gradients in reverse mode and with CasADi

`jax.grad` (`/repo/openap/jax.py:10-18`) runs the code once and then goes back through it, handing every
operand the cotangent of the result times the partial derivative; `casadi.jacobian` and
`casadi.gradient` on the functions of `/repo/openap/casadi.py` do the same, or go forward. All of these
need the same information about a primitive: its value and its partial derivatives at the operands. `Jet`
is a value together with what is derived from it, `T`: a tangent (forward), or the map that
distributes a cotangent over the inputs (reverse, `Pull`). The rules are those of JAX's `lax` primitives
and of CasADi's `casadi_calculus.hpp`; neither library is part of `/repo`, so they are trusted. As in
`Prelude/Dual.lean` every number that is not finite is `NR.nan`.
-/

namespace Verif

/-- What differentiation carries along with a value. -/
class Tan (T : Type) where
  /-- The part of a constant. -/
  zero : T
  add : T → T → T
  /-- Multiplication with a partial derivative. -/
  smul : NR → T → T
  /-- JAX's `select_n_p`. -/
  sel : Bool → T → T → T

/-- Forward mode: a tangent. `select_n_p` takes the tangent of the branch chosen. -/
noncomputable instance : Tan NR where
  zero := .val 0
  add := (· + ·)
  smul := fun c t => t * c
  sel := fun c s t => if c then s else t

/-- Reverse mode: given the cotangent of a value, the contributions to the gradient of the inputs `ι`. -/
def Pull (ι : Type) : Type := NR → ι → NR

/-- Reverse mode: contributions add up, partial derivatives multiply the cotangent on its way back.
The transpose of `select_n_p` sends a zero to the branch not chosen: a branch with an infinite slope
there makes the gradient NaN. -/
noncomputable instance (ι : Type) : Tan (Pull ι) where
  zero := fun _ _ => .val 0
  add := fun s t ct i => s ct i + t ct i
  smul := fun c t ct i => t (ct * c) i
  sel := fun c s t ct i => s (if c then ct else .val 0) i + t (if c then .val 0 else ct) i

/-- A value with its derivative information. -/
structure Jet (T : Type) where
  p : NR
  t : T

namespace Jet
open NR
variable {T : Type} [Tan T]

/-- A number that is not differentiated. -/
def const (c : ℝ) : Jet T := ⟨val c, Tan.zero⟩

/-- `add_p`, `OP_ADD`. -/
noncomputable instance : Add (Jet T) := ⟨fun x y => ⟨x.p + y.p, Tan.add x.t y.t⟩⟩
/-- `sub_p`, `OP_SUB`. -/
noncomputable instance : Sub (Jet T) :=
  ⟨fun x y => ⟨x.p - y.p, Tan.add x.t (Tan.smul (val (-1)) y.t)⟩⟩
/-- `mul_p`, `OP_MUL`. -/
noncomputable instance : Mul (Jet T) :=
  ⟨fun x y => ⟨x.p * y.p, Tan.add (Tan.smul y.p x.t) (Tan.smul x.p y.t)⟩⟩
/-- `div_p`, `OP_DIV`. -/
noncomputable instance : Div (Jet T) :=
  ⟨fun x y => ⟨x.p / y.p, Tan.add (Tan.smul (val 1 / y.p) x.t)
    (Tan.smul (-(x.p * (val 1 / (y.p * y.p)))) y.t)⟩⟩
/-- `neg_p`, `OP_NEG`. -/
noncomputable instance : Neg (Jet T) := ⟨fun x => ⟨-x.p, Tan.smul (val (-1)) x.t⟩⟩
/-- `integer_pow_p`; `OP_SQ`, `OP_CONSTPOW`. -/
noncomputable instance : Pow (Jet T) ℕ :=
  ⟨fun x n => ⟨x.p ^ n, if n = 0 then Tan.zero else Tan.smul (val n * x.p ^ (n - 1)) x.t⟩⟩
/-- A Python literal. -/
noncomputable instance : OfScientific (Jet T) :=
  ⟨fun m s e => ⟨OfScientific.ofScientific m s e, Tan.zero⟩⟩

/-- A unary primitive with its derivative. -/
noncomputable def lift (f df : NR → NR) (x : Jet T) : Jet T := ⟨f x.p, Tan.smul (df x.p) x.t⟩

open Classical in
/-- Weight of the first operand of a maximum or minimum with result `z`; `w` when both tie. -/
noncomputable def weight (w x z y : ℝ) : ℝ := if x = y then w else if x = z then 1 else 0

/-- Maximum and minimum: value `F`, weights of the partial derivatives. With a NaN operand no claim is
made on the derivative. -/
noncomputable def pick (w : ℝ) (f : ℝ → ℝ → ℝ) (F : NR → NR → NR) (x y : Jet T) : Jet T :=
  ⟨F x.p y.p, match x.p, y.p with
    | val a, val c => Tan.add (Tan.smul (val (weight w a (f a c) c)) x.t)
        (Tan.smul (val (1 - weight w a (f a c) c)) y.t)
    | _, _ => Tan.smul nan (Tan.add x.t y.t)⟩

open Classical in
/-- `x < y` on the values. -/
noncomputable def ltB (x y : Jet T) : Bool :=
  match x.p, y.p with
  | val a, val c => decide (a < c)
  | _, _ => false

open Classical in
/-- `x == y` on the values. -/
noncomputable def eqB (x y : Jet T) : Bool :=
  match x.p, y.p with
  | val a, val c => decide (a = c)
  | _, _ => false

/-- `jnp.where(a > c, x, y)`. -/
noncomputable def select (a c x y : Jet T) : Jet T :=
  ⟨if ltB c a then x.p else y.p, Tan.sel (ltB c a) x.t y.t⟩

/-- `casadi.if_else(a > c, x, y)` is `if_else_zero(a > c, x) + if_else_zero(not a > c, y)`; the
partial derivatives of the two are the condition and its negation. -/
noncomputable def ifElse (a c x y : Jet T) : Jet T :=
  ⟨if ltB c a then x.p else y.p, Tan.add (Tan.smul (val (if ltB c a then 1 else 0)) x.t)
    (Tan.smul (val (if ltB c a then 0 else 1)) y.t)⟩

/-- `pow_p`: partial derivatives `y * x ** (y - 1)` (zero for `y = 0`) and `log(x or 1) * x ** y`. -/
noncomputable def power (x y : Jet T) : Jet T :=
  ⟨npNR.power x.p y.p, Tan.add
    (Tan.smul (if eqB y (const 0) then val 0 else y.p * npNR.power x.p (y.p - val 1)) x.t)
    (Tan.smul (npNR.log (if eqB x (const 0) then val 1 else x.p) * npNR.power x.p y.p) y.t)⟩

/-- `OP_POW`: partial derivatives `y * x ** (y - 1)` and `log(x) * x ** y`. -/
noncomputable def powerCa (x y : Jet T) : Jet T :=
  ⟨npNR.power x.p y.p, Tan.add (Tan.smul (y.p * npNR.power x.p (y.p - val 1)) x.t)
    (Tan.smul (npNR.log x.p * npNR.power x.p y.p) y.t)⟩

/-- `jnp.interp`, see `Dual.interpGo`. -/
noncomputable def interpGo (x x0 f0 : Jet T) : List (Jet T) → List (Jet T) → Jet T
  | x1 :: xs, f1 :: fs =>
      if ltB x x1 || (xs.isEmpty && eqB x x1) then
        if eqB x1 x0 then f0 else f0 + (x - x0) / (x1 - x0) * (f1 - f0)
      else interpGo x x1 f1 xs fs
  | _, _ => f0

/-- `jnp.interp(x, xp, fp)`. -/
noncomputable def interp (x : Jet T) : List (Jet T) → List (Jet T) → Jet T
  | x0 :: xs, f0 :: fs => if ltB x x0 then f0 else interpGo x x0 f0 xs fs
  | _, _ => const 0

/-- `casadi.interpolant("LUT", "linear", ...)`: the first and the last segment are continued; the
Jacobian is the slope of the segment. -/
noncomputable def interpCa (x : Jet T) : List (Jet T) → List (Jet T) → Jet T
  | x0 :: x1 :: xs, f0 :: f1 :: fs =>
      match xs, fs with
      | [], _ | _, [] => f0 + (x - x0) / (x1 - x0) * (f1 - f0)
      | _ :: _, _ :: _ =>
        if ltB x x1 then f0 + (x - x0) / (x1 - x0) * (f1 - f0)
        else interpCa x (x1 :: xs) (f1 :: fs)
  | _, _ => const 0

open Classical in
/-- `rem_p`, `OP_FMOD`: partial derivatives 1 and minus the whole part of the quotient. -/
noncomputable def fmod (x y : Jet T) : Jet T :=
  ⟨npNR.fmod x.p y.p, Tan.add x.t
    (Tan.smul (-NR.map (fun q => if 0 ≤ q then (⌊q⌋ : ℝ) else (⌈q⌉ : ℝ)) (x.p / y.p)) y.t)⟩

/-- `atan2_p`, `OP_ATAN2`. -/
noncomputable def arctan2 (y x : Jet T) : Jet T :=
  ⟨npNR.arctan2 y.p x.p, Tan.add (Tan.smul (x.p / (y.p * y.p + x.p * x.p)) y.t)
    (Tan.smul (-(y.p / (y.p * y.p + x.p * x.p))) x.t)⟩

end Jet

open Verif.NR Verif.Jet in
/-- The JAX backend, `/repo/openap/backends/jax_backend.py:40-130`. -/
noncomputable def jaxJet (T : Type) [Tan T] : Backend (Jet T) where
  sqrt := lift npNR.sqrt fun x => val 0.5 / npNR.sqrt x
  exp := lift npNR.exp npNR.exp
  log := lift npNR.log fun x => val 1 / x
  power := Jet.power
  sin := lift npNR.sin npNR.cos
  cos := lift npNR.cos fun x => -npNR.sin x
  tan := lift npNR.tan fun x => val 1 + npNR.tan x * npNR.tan x
  arcsin := lift npNR.arcsin fun x => val 1 / npNR.sqrt (val 1 - x * x)
  arccos := lift npNR.arccos fun x => -(val 1 / npNR.sqrt (val 1 - x * x))
  arctan := lift npNR.arctan fun x => val 1 / (val 1 + x * x)
  arctan2 := Jet.arctan2
  abs := lift npNR.abs (NR.map Real.sign)
  whereGt := Jet.select
  maximum := pick (1 / 2) max npNR.maximum
  minimum := pick (1 / 2) min npNR.minimum
  clip := fun x lo hi => pick (1 / 2) min npNR.minimum (pick (1 / 2) max npNR.maximum x lo) hi
  interp := Jet.interp
  fmod := Jet.fmod
  pi := const Real.pi

open Verif.NR Verif.Jet in
/-- The CasADi backend, `/repo/openap/backends/casadi_backend.py:43-126`. The weights that `fmax` and
`fmin` give to operands that tie differ between versions of CasADi (one and zero, or one half each);
`w` is the weight of the first. -/
noncomputable def casadiJet (w : ℝ) (T : Type) [Tan T] : Backend (Jet T) where
  sqrt := lift npNR.sqrt fun x => val 1 / (val 2 * npNR.sqrt x)
  exp := lift npNR.exp npNR.exp
  log := lift npNR.log fun x => val 1 / x
  power := Jet.powerCa
  sin := lift npNR.sin npNR.cos
  cos := lift npNR.cos fun x => -npNR.sin x
  tan := lift npNR.tan fun x => val 1 / (npNR.cos x * npNR.cos x)
  arcsin := lift npNR.arcsin fun x => val 1 / npNR.sqrt (val 1 - x * x)
  arccos := lift npNR.arccos fun x => -(val 1 / npNR.sqrt (val 1 - x * x))
  arctan := lift npNR.arctan fun x => val 1 / (val 1 + x * x)
  arctan2 := Jet.arctan2
  abs := lift npNR.abs (NR.map Real.sign)
  whereGt := Jet.ifElse
  maximum := pick w max casadiNR.maximum
  minimum := pick w min casadiNR.minimum
  clip := fun x lo hi => pick w max casadiNR.maximum lo (pick w min casadiNR.minimum x hi)
  interp := Jet.interpCa
  fmod := Jet.fmod
  pi := const Real.pi

end Verif
