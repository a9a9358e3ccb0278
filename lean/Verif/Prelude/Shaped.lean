import Verif.Prelude.Backend

/-!
# Arrays with a shape and a library

A carrier for the numeric code in which values are what Python holds: numbers and arrays with a
shape, NumPy's or JAX's, combined by NumPy's broadcasting rule. Shapes and indices are written
with the **last axis first**, so that broadcasting aligns their heads: a NumPy shape `(m, n)` is
`[n, m]`, a column `(n, 1)` is `[1, n]`.

`none` is a raised exception (shapes that cannot be broadcast). Numbers are real numbers.
Symbolic CasADi values are not in this carrier (see `Prelude/Graph.lean`).
-/

namespace Verif

/-- A number or an array. `jx` tells a `jax.Array` from what NumPy and Python produce; a NumPy
value with shape `[]` is a number (`float` or `np.float64`). `get` is the element at an index
within the shape. -/
structure Arr where
  jx : Bool
  shape : List ℕ
  get : List ℕ → ℝ

/-- A value, or an exception. -/
abbrev Nd := Option Arr

namespace Nd

/-- NumPy's rule for one axis: equal lengths, or one of them is 1. -/
def axis (a c : ℕ) : Option ℕ :=
  if a = c then some a else if a = 1 then some c else if c = 1 then some a else none

/-- NumPy's broadcasting rule for shapes (last axis first). -/
def broadcast : List ℕ → List ℕ → Option (List ℕ)
  | [], t => some t
  | s, [] => some s
  | a :: s, c :: t => (axis a c).bind fun d => (broadcast s t).map (d :: ·)

/-- Index into an operand of shape `s` that belongs to an index of the broadcast result: axes of
length 1 are read at 0, axes that the operand does not have are dropped. -/
def pick : List ℕ → List ℕ → List ℕ
  | [], _ => []
  | d :: s, i => (if d = 1 then 0 else i.headD 0) :: pick s i.tail

/-- A number. -/
def scalar (x : ℝ) : Nd := some ⟨false, [], fun _ => x⟩

/-- Application of a function to every element; `j` says whether the function is JAX's. -/
def map (j : Bool) (f : ℝ → ℝ) : Nd → Nd
  | some a => some ⟨j || a.jx, a.shape, fun i => f (a.get (pick a.shape i))⟩
  | none => none

/-- Application of a function of two arguments with broadcasting. -/
def map₂ (j : Bool) (f : ℝ → ℝ → ℝ) : Nd → Nd → Nd
  | some a, some c => (broadcast a.shape c.shape).map fun s =>
      ⟨j || a.jx || c.jx, s, fun i => f (a.get (pick a.shape i)) (c.get (pick c.shape i))⟩
  | _, _ => none

/-- Three arguments: the first two are broadcast first, which gives the same shape. -/
def map₃ (j : Bool) (f : ℝ → ℝ → ℝ → ℝ) : Nd → Nd → Nd → Nd
  | some a, some c, some d => (broadcast a.shape c.shape).bind fun s =>
      (broadcast s d.shape).map fun u => ⟨j || a.jx || c.jx || d.jx, u, fun i =>
        f (a.get (pick a.shape i)) (c.get (pick c.shape i)) (d.get (pick d.shape i))⟩
  | _, _, _ => none

/-- Python operators: JAX as soon as an operand is a JAX array. -/
noncomputable instance : Add Nd := ⟨map₂ false (· + ·)⟩
noncomputable instance : Sub Nd := ⟨map₂ false (· - ·)⟩
noncomputable instance : Mul Nd := ⟨map₂ false (· * ·)⟩
noncomputable instance : Div Nd := ⟨map₂ false (· / ·)⟩
noncomputable instance : Neg Nd := ⟨map false (- ·)⟩
noncomputable instance : Pow Nd ℕ := ⟨fun x n => map false (· ^ n) x⟩
noncomputable instance : OfScientific Nd := ⟨fun m s e => scalar (OfScientific.ofScientific m s e)⟩

/-- The numbers of a list of numbers (the tables given to `interp`). -/
def numbers : List Nd → Option (List ℝ)
  | [] => some []
  | some ⟨false, [], f⟩ :: l => (numbers l).map (f [] :: ·)
  | _ :: _ => none

/-- `where(a > c, x, y)`; the array of truth values holds 1 and 0. -/
noncomputable def whereGt (j : Bool) (a c x y : Nd) : Nd :=
  map₃ j (fun m p q => np.whereGt m 0 p q) (map₂ false (fun p q => np.whereGt p q 1 0) a c) x y

end Nd

open Nd in
/-- The NumPy backend (`j = false`, `/repo/openap/backends/numpy_backend.py:11-110`) and the JAX
backend (`j = true`, `jax_backend.py:40-121`) on numbers and arrays: NumPy functions keep the
kind of their arguments, JAX functions return a `jax.Array` whatever they are given. The model
writes Python's `**` with a fractional exponent as the backend's `power`; the code never returns
a value that has only passed through `**`, so the kind of a result does not depend on this. -/
noncomputable def ndBackend (j : Bool) : Backend Nd where
  sqrt := map j np.sqrt
  exp := map j np.exp
  log := map j np.log
  power := map₂ j np.power
  sin := map j np.sin
  cos := map j np.cos
  tan := map j np.tan
  arcsin := map j np.arcsin
  arccos := map j np.arccos
  arctan := map j np.arctan
  arctan2 := map₂ j np.arctan2
  abs := map j np.abs
  whereGt := whereGt j
  maximum := map₂ j np.maximum
  minimum := map₂ j np.minimum
  clip := map₃ j np.clip
  interp := fun x xp fp => match numbers xp, numbers fp with
    | some xp, some fp => map j (fun x => np.interp x xp fp) x
    | _, _ => none
  fmod := map₂ j np.fmod
  pi := scalar np.pi

end Verif
