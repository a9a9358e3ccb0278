import Verif.Prelude.Backend

/-!
# Overflow

IEEE 754 arithmetic with infinities and NaN, but without rounding: a result of magnitude `Ω` or more
becomes infinite, a smaller one is exact. Double precision overflows at `2 ^ 1024` (less half a unit
in the last place), single precision at `2 ^ 128`. Rounding is the subject of `Prelude/Float`;
underflow and the sign of zero are not modelled.
-/

namespace Verif

/-- A value of a format that overflows at `Ω`. -/
inductive XR (Ω : ℝ) where
  | nan : XR Ω
  | minf : XR Ω
  | pinf : XR Ω
  | fin : ℝ → XR Ω

namespace XR
variable {Ω : ℝ}

open Classical in
/-- The result of an operation whose exact value is `x`. -/
noncomputable def res (x : ℝ) : XR Ω := if Ω ≤ x then pinf else if x ≤ -Ω then minf else fin x

/-- Negation. -/
noncomputable def neg : XR Ω → XR Ω
  | nan => nan
  | minf => pinf
  | pinf => minf
  | fin x => fin (-x)

/-- Addition; infinities of opposite sign give NaN. -/
noncomputable def add : XR Ω → XR Ω → XR Ω
  | nan, _ | _, nan => nan
  | pinf, minf | minf, pinf => nan
  | pinf, _ | _, pinf => pinf
  | minf, _ | _, minf => minf
  | fin x, fin y => res (x + y)

open Classical in
/-- An infinity times a number. -/
noncomputable def scaled (y : ℝ) (i : XR Ω) : XR Ω :=
  if 0 < y then i else if y < 0 then neg i else nan

/-- Multiplication; zero times infinity is NaN. -/
noncomputable def mul : XR Ω → XR Ω → XR Ω
  | nan, _ | _, nan => nan
  | pinf, pinf | minf, minf => pinf
  | pinf, minf | minf, pinf => minf
  | pinf, fin y | fin y, pinf => scaled y pinf
  | minf, fin y | fin y, minf => scaled y minf
  | fin x, fin y => res (x * y)

open Classical in
/-- Division; a number by zero is infinite, zero by zero and infinity by infinity are NaN. -/
noncomputable def div : XR Ω → XR Ω → XR Ω
  | nan, _ | _, nan => nan
  | pinf, fin y => if 0 ≤ y then pinf else minf
  | minf, fin y => if 0 ≤ y then minf else pinf
  | pinf, _ | minf, _ => nan
  | fin _, pinf | fin _, minf => fin 0
  | fin x, fin y => if y = 0 then scaled x pinf else res (x / y)

noncomputable instance : Neg (XR Ω) := ⟨neg⟩
noncomputable instance : Add (XR Ω) := ⟨add⟩
noncomputable instance : Sub (XR Ω) := ⟨fun x y => add x (neg y)⟩
noncomputable instance : Mul (XR Ω) := ⟨mul⟩
noncomputable instance : Div (XR Ω) := ⟨div⟩

/-- Python's `x ** n` with an integer literal `n`. -/
noncomputable def npow (x : XR Ω) (n : ℕ) : XR Ω :=
  if n = 0 then fin 1 else match x with
    | nan => nan
    | pinf => pinf
    | minf => if n % 2 = 0 then pinf else minf
    | fin x => res (x ^ n)
noncomputable instance : Pow (XR Ω) ℕ := ⟨npow⟩
noncomputable instance : OfScientific (XR Ω) := ⟨fun m s e => fin (OfScientific.ofScientific m s e)⟩

/-- A function of finite values, with its values at the infinities. -/
def ext (f : ℝ → XR Ω) (lo hi : XR Ω) : XR Ω → XR Ω
  | nan => nan
  | minf => lo
  | pinf => hi
  | fin x => f x

open Classical in
/-- `np.power`. -/
noncomputable def power : XR Ω → XR Ω → XR Ω
  | x, fin y => if y = 0 then fin 1 else
      ext (fun x => if 0 < x ∨ (x < 0 ∧ ∃ n : ℤ, y = n) then res (x ^ y)
          else if x = 0 then (if 0 < y then fin 0 else pinf) else nan)
        (if 0 < y then (if ∃ n : ℤ, y = 2 * n + 1 then minf else pinf) else fin 0)
        (if 0 < y then pinf else fin 0) x
  | fin x, i => if x = 1 then fin 1 else match i with
      | nan => nan
      | pinf => if 1 < |x| then pinf else if |x| = 1 then fin 1 else fin 0
      | _ => if 1 < |x| then fin 0 else if |x| = 1 then fin 1 else pinf
  | nan, _ | _, nan => nan
  | _, pinf => pinf
  | _, minf => fin 0

/-- `np.arctan2(y, x)`. -/
noncomputable def arctan2 : XR Ω → XR Ω → XR Ω
  | nan, _ | _, nan => nan
  | fin y, fin x => fin (atan2R y x)
  | pinf, fin _ => fin (Real.pi / 2)
  | minf, fin _ => fin (-(Real.pi / 2))
  | fin _, pinf => fin 0
  | fin y, minf => fin (open Classical in if 0 ≤ y then Real.pi else -Real.pi)
  | pinf, pinf => fin (Real.pi / 4)
  | pinf, minf => fin (3 * Real.pi / 4)
  | minf, pinf => fin (-(Real.pi / 4))
  | minf, minf => fin (-(3 * Real.pi / 4))

/-- `x > y`; false for NaN. -/
def gt : XR Ω → XR Ω → Prop
  | nan, _ | _, nan => False
  | fin x, fin y => x > y
  | pinf, fin _ | pinf, minf | fin _, minf => True
  | _, _ => False

open Classical in
/-- `np.maximum` returns NaN if an operand is NaN. -/
noncomputable def maximum : XR Ω → XR Ω → XR Ω
  | nan, _ | _, nan => nan
  | fin x, fin y => fin (max x y)
  | x, y => if gt x y then x else y

open Classical in
/-- `np.minimum` returns NaN if an operand is NaN. -/
noncomputable def minimum : XR Ω → XR Ω → XR Ω
  | nan, _ | _, nan => nan
  | fin x, fin y => fin (min x y)
  | x, y => if gt y x then x else y

/-- All values of a table, if every entry is finite. -/
def all : List (XR Ω) → Option (List ℝ)
  | [] => some []
  | fin x :: l => (all l).map (x :: ·)
  | _ :: _ => none

/-- `np.interp` in a table of finite entries (others are not modelled: NaN). -/
noncomputable def interp (x : XR Ω) (xp fp : List (XR Ω)) : XR Ω :=
  match all xp, all fp with
  | some xp, some fp => ext (fun x => res (interpR x xp fp)) (fin (fp.headD 0)) (fin (fp.getLastD 0)) x
  | _, _ => nan

open Classical in
/-- C's `fmod`. -/
noncomputable def fmod : XR Ω → XR Ω → XR Ω
  | nan, _ | _, nan => nan
  | fin x, fin y => if y = 0 then nan else fin (fmodR x y)
  | fin x, _ => fin x
  | _, _ => nan

end XR

open XR in
open Classical in
/-- The NumPy backend (`/repo/openap/backends/numpy_backend.py:11-110`) with overflow at `Ω`. -/
noncomputable def ovf (Ω : ℝ) : Backend (XR Ω) where
  sqrt := ext (fun x => if 0 ≤ x then fin (Real.sqrt x) else nan) nan pinf
  exp := ext (fun x => res (Real.exp x)) (fin 0) pinf
  log := ext (fun x => if 0 < x then fin (Real.log x) else if x = 0 then minf else nan) nan pinf
  power := power
  sin := ext (fun x => fin (Real.sin x)) nan nan
  cos := ext (fun x => fin (Real.cos x)) nan nan
  tan := ext (fun x => if Real.cos x = 0 then nan else res (Real.tan x)) nan nan
  arcsin := ext (fun x => if |x| ≤ 1 then fin (Real.arcsin x) else nan) nan nan
  arccos := ext (fun x => if |x| ≤ 1 then fin (Real.arccos x) else nan) nan nan
  arctan := ext (fun x => fin (Real.arctan x)) (fin (-(Real.pi / 2))) (fin (Real.pi / 2))
  arctan2 := arctan2
  abs := ext (fun x => fin |x|) pinf pinf
  whereGt := fun a c x y => if gt a c then x else y
  maximum := maximum
  minimum := minimum
  clip := fun x lo hi => minimum (maximum x lo) hi
  interp := interp
  fmod := fmod
  pi := fin Real.pi

end Verif
