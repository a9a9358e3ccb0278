import Verif.Prelude.Backend
import Mathlib.Data.Real.Sign

/-!
# JAX differentiation

`/repo/openap/jax.py:1-25` offers the models for `jax.grad`. Under `jax.jvp`/`jax.grad` every
value is traced with a tangent, and every primitive updates both. `Dual` is that pair, `jaxDual`
the JAX backend (`/repo/openap/backends/jax_backend.py:40-130`) on such pairs, with the
differentiation rules that JAX attaches to the `lax` primitives behind each `jnp` function
(rules cited by the name of the primitive; JAX itself is not part of `/repo`, so these rules are
trusted). A tangent that is infinite or NaN is `NR.nan`: JAX's linear rules never turn one into
a finite number, apart from `select` (`jnp.where`), which drops the branch not chosen.

Reverse mode (`jax.grad`) transposes the same linear rules, see `Prelude/Gradient.lean`.
-/

namespace Verif

/-- A JAX value and its tangent. -/
@[ext] structure Dual where
  p : NR
  t : NR

namespace Dual
open NR

/-- A number that is not differentiated (a Python literal or an entry of a data file). -/
def const (c : ℝ) : Dual := ⟨val c, val 0⟩

/-- An argument with value `x` moved in direction `v`. -/
def seed (x v : ℝ) : Dual := ⟨val x, val v⟩

/-- `add_p`. -/
noncomputable instance : Add Dual := ⟨fun x y => ⟨x.p + y.p, x.t + y.t⟩⟩
/-- `sub_p`. -/
noncomputable instance : Sub Dual := ⟨fun x y => ⟨x.p - y.p, x.t - y.t⟩⟩
/-- `mul_p`. -/
noncomputable instance : Mul Dual := ⟨fun x y => ⟨x.p * y.p, x.t * y.p + x.p * y.t⟩⟩
/-- `div_p`: `g / y` and `-g * x * y ** -2`. -/
noncomputable instance : Div Dual :=
  ⟨fun x y => ⟨x.p / y.p, x.t / y.p + -y.t * x.p * (val 1 / (y.p * y.p))⟩⟩
/-- `neg_p`. -/
noncomputable instance : Neg Dual := ⟨fun x => ⟨-x.p, -x.t⟩⟩
/-- `integer_pow_p`: `g * (n * x ** (n - 1))`, zero for `n = 0`. -/
noncomputable instance : Pow Dual ℕ :=
  ⟨fun x n => ⟨x.p ^ n, if n = 0 then val 0 else x.t * (val n * x.p ^ (n - 1))⟩⟩
/-- A Python literal. -/
noncomputable instance : OfScientific Dual :=
  ⟨fun m s e => ⟨OfScientific.ofScientific m s e, val 0⟩⟩

/-- A unary primitive with its derivative. -/
noncomputable def lift (f df : NR → NR) (x : Dual) : Dual := ⟨f x.p, x.t * df x.p⟩

open Classical in
/-- `_balanced_eq(x, z, y)` of `max_p` and `min_p`: weight of the operand `x` when the result is
`z` and the other operand is `y`; one half each when they tie. -/
noncomputable def balanced (x z y : ℝ) : ℝ := (if x = z then 1 else 0) / (if y = z then 2 else 1)

/-- `max_p`, `min_p`. -/
noncomputable def pick (f : ℝ → ℝ → ℝ) (x y : Dual) : Dual :=
  match x.p, y.p with
  | val a, val c =>
      ⟨val (f a c), x.t * val (balanced a (f a c) c) + y.t * val (balanced c (f a c) a)⟩
  | _, _ => ⟨nan, nan⟩

open Classical in
/-- `lt_p`, `eq_p` on the values; comparisons carry no tangent. -/
noncomputable def ltB (x y : Dual) : Bool :=
  match x.p, y.p with
  | val a, val c => decide (a < c)
  | _, _ => false

open Classical in
/-- Equality of the values. -/
noncomputable def eqB (x y : Dual) : Bool :=
  match x.p, y.p with
  | val a, val c => decide (a = c)
  | _, _ => false

/-- `select_n_p` under `jnp.where(a > c, x, y)`: value and tangent of the branch chosen. -/
noncomputable def select (a c x y : Dual) : Dual := if ltB c a then x else y

/-- `pow_p`: `g * (y * x ** (y - 1))` (zero for `y = 0`) and `g * (log(x or 1) * x ** y)`. -/
noncomputable def power (x y : Dual) : Dual :=
  ⟨npNR.power x.p y.p,
   x.t * (if eqB y (const 0) then val 0 else y.p * npNR.power x.p (y.p - val 1)) +
   y.t * (npNR.log (if eqB x (const 0) then val 1 else x.p) * npNR.power x.p y.p)⟩

/-- `jnp.interp` from the left node `(x0, f0)`: `f0 + (x - x0) / (x1 - x0) * (f1 - f0)` on the
segment `searchsorted(xp, x, side="right")` clipped to the table, so the right end belongs to the
last segment; a segment of width zero gives its left value. -/
noncomputable def interpGo (x x0 f0 : Dual) : List Dual → List Dual → Dual
  | x1 :: xs, f1 :: fs =>
      if ltB x x1 || (xs.isEmpty && eqB x x1) then
        if eqB x1 x0 then f0 else f0 + (x - x0) / (x1 - x0) * (f1 - f0)
      else interpGo x x1 f1 xs fs
  | _, _ => f0

/-- `jnp.interp(x, xp, fp)`. -/
noncomputable def interp (x : Dual) : List Dual → List Dual → Dual
  | x0 :: xs, f0 :: fs => if ltB x x0 then f0 else interpGo x x0 f0 xs fs
  | _, _ => const 0

open Classical in
/-- `rem_p`: `g` and `-g * (sign(x / y) * floor(|x / y|))`. -/
noncomputable def fmod (x y : Dual) : Dual :=
  ⟨npNR.fmod x.p y.p,
   x.t + -y.t * NR.map (fun q => if 0 ≤ q then (⌊q⌋ : ℝ) else (⌈q⌉ : ℝ)) (x.p / y.p)⟩

end Dual

open Verif.NR Verif.Dual in
/-- The JAX backend on values with tangents, `/repo/openap/backends/jax_backend.py:40-130`. -/
noncomputable def jaxDual : Backend Dual where
  sqrt := lift npNR.sqrt fun x => val 0.5 / npNR.sqrt x
  exp := lift npNR.exp npNR.exp
  log := lift npNR.log fun x => val 1 / x
  power := Dual.power
  sin := lift npNR.sin npNR.cos
  cos := lift npNR.cos fun x => -npNR.sin x
  tan := lift npNR.tan fun x => val 1 + npNR.tan x * npNR.tan x
  arcsin := lift npNR.arcsin fun x => val 1 / npNR.sqrt (val 1 - x * x)
  arccos := lift npNR.arccos fun x => -(val 1 / npNR.sqrt (val 1 - x * x))
  arctan := lift npNR.arctan fun x => val 1 / (val 1 + x * x)
  arctan2 := fun y x =>
    ⟨npNR.arctan2 y.p x.p,
     y.t * (x.p / (y.p * y.p + x.p * x.p)) + x.t * -(y.p / (y.p * y.p + x.p * x.p))⟩
  abs := lift npNR.abs (NR.map Real.sign)
  whereGt := Dual.select
  maximum := pick max
  minimum := pick min
  clip := fun x lo hi => pick min (pick max x lo) hi
  interp := Dual.interp
  fmod := Dual.fmod
  pi := const Real.pi

end Verif
