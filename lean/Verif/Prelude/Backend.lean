import Mathlib.Analysis.SpecialFunctions.Pow.Real
import Mathlib.Analysis.SpecialFunctions.Trigonometric.Inverse
import Mathlib.Analysis.SpecialFunctions.Trigonometric.Arctan
import Mathlib.Analysis.SpecialFunctions.Complex.Arg

/-!
# Math backends

openap's numeric classes call every elementary function on a backend object `b`.
`/repo/openap/backends/numpy_backend.py:11-110`, `casadi_backend.py:43-126` and
`jax_backend.py:40-130` supply it. `Backend α` is the record of the operations
that the modelled code uses. The arithmetic operators `+ - * / **int` are Python
operators on the values themselves, so they are type-class arguments of the
model functions and not backend fields.
-/

namespace Verif

/-- The operations called on `b` (`/repo/openap/backends/protocol`-style interface;
`numpy_backend.py:18-110`). `whereGt a c x y` stands for the only form in which the
code uses `where`: `b.where(a > c, x, y)`. -/
structure Backend (α : Type) where
  sqrt : α → α
  exp : α → α
  log : α → α
  power : α → α → α
  sin : α → α
  cos : α → α
  tan : α → α
  arcsin : α → α
  arccos : α → α
  arctan : α → α
  arctan2 : α → α → α
  abs : α → α
  whereGt : α → α → α → α → α
  maximum : α → α → α
  minimum : α → α → α
  clip : α → α → α → α
  interp : α → List α → List α → α
  fmod : α → α → α
  pi : α

/-! ## Real-number primitives -/

/-- C `fmod` on reals: remainder with the sign of the dividend
(`np.fmod`, `numpy_backend.py:102-104`). -/
noncomputable def fmodR (x y : ℝ) : ℝ :=
  let q := x / y
  x - y * (if 0 ≤ q then (⌊q⌋ : ℝ) else (⌈q⌉ : ℝ))

/-- `np.clip(x, lo, hi)` = `minimum(maximum(x, lo), hi)` (`numpy_backend.py:87-89`). -/
noncomputable def clipR (x lo hi : ℝ) : ℝ := min (max x lo) hi

/-- Inner loop of piecewise-linear interpolation from the left node `(x0, f0)`;
past the last node the last value is held (NumPy). -/
noncomputable def interpGo (x x0 f0 : ℝ) : List ℝ → List ℝ → ℝ
  | x1 :: xs, f1 :: fs =>
      if x < x1 then f0 + (f1 - f0) / (x1 - x0) * (x - x0) else interpGo x x1 f1 xs fs
  | _, _ => f0

/-- `np.interp(x, xp, fp)` for increasing `xp` (`numpy_backend.py:93-95`): constant
outside the table. `jnp.interp` is the same function on reals
(`jax_backend.py:97-104`). An empty table is an error in NumPy; the code only
passes four-element tables, `0` here is a placeholder for that case. -/
noncomputable def interpR (x : ℝ) : List ℝ → List ℝ → ℝ
  | x0 :: xs, f0 :: fs => if x < x0 then f0 else interpGo x x0 f0 xs fs
  | _, _ => 0

/-- `casadi.interpolant("LUT", "linear", ...)` (`casadi_backend.py:97-103`): same
segments, but the first and last segments are continued outside the table. -/
noncomputable def interpCa (x : ℝ) : List ℝ → List ℝ → ℝ
  | x0 :: x1 :: xs, f0 :: f1 :: fs =>
      match xs, fs with
      | [], _ | _, [] => f0 + (f1 - f0) / (x1 - x0) * (x - x0)
      | _ :: _, _ :: _ =>
        if x < x1 then f0 + (f1 - f0) / (x1 - x0) * (x - x0)
        else interpCa x (x1 :: xs) (f1 :: fs)
  | _, _ => 0

/-- `atan2(y, x)`: the argument of `x + i y`, in `(-π, π]`, `0` at the origin.
Signed zeros are not modelled. -/
noncomputable def atan2R (y x : ℝ) : ℝ := Complex.arg ⟨x, y⟩

/-! ## Backends over `ℝ` -/

open Classical in
/-- NumPy backend on real scalars, `/repo/openap/backends/numpy_backend.py:11-110`.
Floating point is idealised to `ℝ`. -/
noncomputable def np : Backend ℝ where
  sqrt := Real.sqrt
  exp := Real.exp
  log := Real.log
  power := fun x y => x ^ y
  sin := Real.sin
  cos := Real.cos
  tan := Real.tan
  arcsin := Real.arcsin
  arccos := Real.arccos
  arctan := Real.arctan
  arctan2 := atan2R
  abs := fun x => |x|
  whereGt := fun a c x y => if a > c then x else y
  maximum := max
  minimum := min
  clip := clipR
  interp := interpR
  fmod := fmodR
  pi := Real.pi

/-- JAX backend on real scalars, `/repo/openap/backends/jax_backend.py:40-130`.
`jnp.clip` is `minimum(maximum(x, lo), hi)`; every entry is the same real function
as NumPy's. (JAX's default 32-bit precision is a rounding matter, not modelled.) -/
noncomputable def jax : Backend ℝ where
  sqrt := Real.sqrt
  exp := Real.exp
  log := Real.log
  power := fun x y => x ^ y
  sin := Real.sin
  cos := Real.cos
  tan := Real.tan
  arcsin := Real.arcsin
  arccos := Real.arccos
  arctan := Real.arctan
  arctan2 := atan2R
  abs := fun x => |x|
  whereGt := fun a c x y => if a > c then x else y
  maximum := max
  minimum := min
  clip := fun x lo hi => min (max x lo) hi
  interp := interpR
  fmod := fmodR
  pi := Real.pi

/-- CasADi backend on real scalars, `/repo/openap/backends/casadi_backend.py:43-126`.
`clip` is `fmax(lo, fmin(x, hi))` (lines 92-93), `where` is `if_else`, `abs` is
`fabs`, `maximum`/`minimum` are `fmax`/`fmin`, `interp` extrapolates. -/
noncomputable def casadi : Backend ℝ where
  sqrt := Real.sqrt
  exp := Real.exp
  log := Real.log
  power := fun x y => x ^ y
  sin := Real.sin
  cos := Real.cos
  tan := Real.tan
  arcsin := Real.arcsin
  arccos := Real.arccos
  arctan := Real.arctan
  arctan2 := atan2R
  abs := fun x => |x|
  whereGt := fun a c x y => if a > c then x else y
  maximum := max
  minimum := min
  clip := fun x lo hi => max lo (min x hi)
  interp := interpCa
  fmod := fmodR
  pi := Real.pi

/-! ## Arrays: NumPy acts index by index -/

/-- NumPy backend on arrays with index set `ι` (all operands broadcast to that index
set). Every NumPy function used is a ufunc (or `np.interp`/`np.where`/`np.clip`,
which also act index by index). -/
noncomputable def npArr (ι : Type) : Backend (ι → ℝ) where
  sqrt := fun x i => np.sqrt (x i)
  exp := fun x i => np.exp (x i)
  log := fun x i => np.log (x i)
  power := fun x y i => np.power (x i) (y i)
  sin := fun x i => np.sin (x i)
  cos := fun x i => np.cos (x i)
  tan := fun x i => np.tan (x i)
  arcsin := fun x i => np.arcsin (x i)
  arccos := fun x i => np.arccos (x i)
  arctan := fun x i => np.arctan (x i)
  arctan2 := fun y x i => np.arctan2 (y i) (x i)
  abs := fun x i => np.abs (x i)
  whereGt := fun a c x y i => np.whereGt (a i) (c i) (x i) (y i)
  maximum := fun x y i => np.maximum (x i) (y i)
  minimum := fun x y i => np.minimum (x i) (y i)
  clip := fun x lo hi i => np.clip (x i) (lo i) (hi i)
  interp := fun x xp fp i => np.interp (x i) (xp.map (· i)) (fp.map (· i))
  fmod := fun x y i => np.fmod (x i) (y i)
  pi := fun _ => np.pi

/-- A Python float literal broadcast to an array. -/
instance arrOfScientific (ι : Type) : OfScientific (ι → ℝ) where
  ofScientific m s e := fun _ => OfScientific.ofScientific m s e

/-! ## Real numbers with an explicit "no number" value -/

/-- A value that is either a finite real or not (`nan`). Used to track NaN through the
code and to show that no operation is applied outside its domain: `sqrt` of a
negative, `log` of a non-positive, division by zero, a fractional power of a negative
and an inverse sine outside `[-1, 1]` all give `nan`. (In IEEE arithmetic some of
these are infinities; both mean "no finite value".) -/
inductive NR where
  | nan : NR
  | val : ℝ → NR

namespace NR

/-- Lift of a total binary operation: NaN if either operand is NaN. -/
def map₂ (f : ℝ → ℝ → ℝ) : NR → NR → NR
  | val x, val y => val (f x y)
  | _, _ => nan

/-- Lift of a total unary operation. -/
def map (f : ℝ → ℝ) : NR → NR
  | val x => val (f x)
  | nan => nan

noncomputable instance : Add NR := ⟨map₂ (· + ·)⟩
noncomputable instance : Sub NR := ⟨map₂ (· - ·)⟩
noncomputable instance : Mul NR := ⟨map₂ (· * ·)⟩
noncomputable instance : Neg NR := ⟨map (- ·)⟩
open Classical in
/-- Division, `nan` when the divisor is zero. -/
noncomputable instance : Div NR :=
  ⟨fun x y => match x, y with
    | val a, val c => if c = 0 then nan else val (a / c)
    | _, _ => nan⟩
/-- Python `x ** n` with an integer literal `n`; `x ** 0 = 1` even for NaN. -/
noncomputable instance : Pow NR ℕ :=
  ⟨fun x n => if n = 0 then val 1 else map (· ^ n) x⟩
noncomputable instance : OfScientific NR := ⟨fun m s e => val (OfScientific.ofScientific m s e)⟩

open Classical in
/-- Restrict a real function to a domain. -/
noncomputable def partialMap (dom : ℝ → Prop) (f : ℝ → ℝ) : NR → NR
  | val x => if dom x then val (f x) else nan
  | nan => nan

open Classical in
/-- `np.power`: defined for positive bases, `0 ** y` with `y ≥ 0`, integer powers of
negative bases; `x ** 0 = 1` and `1 ** y = 1` even for NaN. -/
noncomputable def power : NR → NR → NR
  | val x, val y =>
      if 0 < x ∨ (x = 0 ∧ 0 ≤ y) ∨ (x < 0 ∧ ∃ n : ℤ, y = n) then val (x ^ y) else nan
  | nan, val y => if y = 0 then val 1 else nan
  | val x, nan => if x = 1 then val 1 else nan
  | nan, nan => nan

open Classical in
/-- `where(a > c, x, y)`: a comparison with NaN is false. -/
noncomputable def whereGt : NR → NR → NR → NR → NR
  | val a, val c, x, y => if a > c then x else y
  | _, _, _, y => y

/-- C `fmax`/`fmin` ignore a NaN operand (CasADi). -/
def fIgnore (f : ℝ → ℝ → ℝ) : NR → NR → NR
  | val x, val y => val (f x y)
  | val x, nan => val x
  | nan, y => y

/-- All values of a table, if every entry is a number. -/
def all : List NR → Option (List ℝ)
  | [] => some []
  | val x :: l => (all l).map (x :: ·)
  | nan :: _ => none

/-- Lift of table interpolation. -/
noncomputable def interpWith (f : ℝ → List ℝ → List ℝ → ℝ) (x : NR) (xp fp : List NR) : NR :=
  match x, all xp, all fp with
  | val x, some xp, some fp => val (f x xp fp)
  | _, _, _ => nan

end NR

open NR in
/-- NumPy backend with NaN: `np.maximum`, `np.minimum`, `np.clip` propagate NaN. -/
noncomputable def npNR : Backend NR where
  sqrt := partialMap (0 ≤ ·) Real.sqrt
  exp := map Real.exp
  log := partialMap (0 < ·) Real.log
  power := NR.power
  sin := map Real.sin
  cos := map Real.cos
  tan := partialMap (fun x => Real.cos x ≠ 0) Real.tan
  arcsin := partialMap (fun x => -1 ≤ x ∧ x ≤ 1) Real.arcsin
  arccos := partialMap (fun x => -1 ≤ x ∧ x ≤ 1) Real.arccos
  arctan := map Real.arctan
  arctan2 := map₂ atan2R
  abs := map (|·|)
  whereGt := NR.whereGt
  maximum := map₂ max
  minimum := map₂ min
  clip := fun x lo hi => map₂ min (map₂ max x lo) hi
  interp := interpWith interpR
  fmod := fun x y => match x, y with
    | val _, val y' => partialMap (fun _ => y' ≠ 0) (fun x => fmodR x y') x
    | _, _ => nan
  pi := val Real.pi

open NR in
/-- CasADi backend with NaN: `fmax`/`fmin` return the other operand when one is NaN
(C99 semantics, used by CasADi's code for `fmax`, `fmin`). -/
noncomputable def casadiNR : Backend NR :=
  { npNR with
    maximum := fIgnore max
    minimum := fIgnore min
    clip := fun x lo hi => fIgnore max lo (fIgnore min x hi)
    interp := interpWith interpCa }

end Verif
