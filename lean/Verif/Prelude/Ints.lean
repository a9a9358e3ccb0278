import Verif.Prelude.Backend

/-!
# Integer arrays in NumPy

One entry of a NumPy array together with the type of the array, for the promotion rules of NumPy 2
(`/repo/pyproject.toml:19` asks for `numpy>=2.1`). Arrays of integers keep their type when they meet
integers written in the code, and their sums, differences, products and powers wrap around; they
become double precision when they meet a float, in true division and in every other function.
Doubles are idealised to `ℝ`; single and half precision are not modelled.
-/

namespace Verif

/-- NumPy's integer types. -/
inductive IntType
  | i8 | i16 | i32 | i64 | u8 | u16 | u32 | u64
  deriving DecidableEq

namespace IntType

/-- Number of bits. -/
def bits : IntType → ℕ
  | i8 | u8 => 8
  | i16 | u16 => 16
  | i32 | u32 => 32
  | i64 | u64 => 64

/-- Whether the type has negative numbers. -/
def signed : IntType → Bool
  | i8 | i16 | i32 | i64 => true
  | _ => false

/-- The least and the greatest number, `np.iinfo`. -/
def lo (d : IntType) : ℤ := if d.signed then -2 ^ (d.bits - 1) else 0
@[inherit_doc lo]
def hi (d : IntType) : ℤ := if d.signed then 2 ^ (d.bits - 1) - 1 else 2 ^ d.bits - 1

/-- The number is representable. -/
def Fits (d : IntType) (n : ℤ) : Prop := d.lo ≤ n ∧ n ≤ d.hi
instance (d : IntType) (n : ℤ) : Decidable (d.Fits n) := inferInstanceAs (Decidable (_ ∧ _))

/-- The representable number that agrees with `n` in the last `d.bits` bits. -/
def wrap (d : IntType) (n : ℤ) : ℤ := (n - d.lo) % 2 ^ d.bits + d.lo

/-- `np.result_type` of two integer types; `none` stands for double precision. -/
def promote : IntType → IntType → Option IntType
  | u64, u64 | u64, u32 | u32, u64 | u64, u16 | u16, u64 | u64, u8 | u8, u64 => some u64
  | u64, _ | _, u64 => none
  | i64, _ | _, i64 => some i64
  | u32, u32 | u32, u16 | u16, u32 | u32, u8 | u8, u32 => some u32
  | u32, _ | _, u32 => some i64
  | i32, _ | _, i32 => some i32
  | u16, u16 | u16, u8 | u8, u16 => some u16
  | u16, _ | _, u16 => some i32
  | i16, _ | _, i16 => some i16
  | u8, u8 => some u8
  | u8, i8 | i8, u8 => some i16
  | i8, i8 => some i8

end IntType

/-- A number in the course of a calculation. -/
inductive INum where
  /-- A Python float or an entry of an array of doubles. -/
  | flt (x : ℝ)
  /-- A Python integer written in the code. -/
  | py (n : ℤ)
  /-- An entry of an array of integers. -/
  | int (d : IntType) (n : ℤ)
  /-- `OverflowError` has been raised. -/
  | err

namespace INum

/-- The number meant. -/
noncomputable def val : INum → ℝ
  | flt x => x
  | py n => n
  | int _ n => n
  | err => 0

/-- A binary operation that gives integers for integers. A Python integer takes the type of the
array it meets; if it is not representable there, `OverflowError` is raised. -/
noncomputable def arith (f : ℤ → ℤ → ℤ) (g : ℝ → ℝ → ℝ) : INum → INum → INum
  | err, _ | _, err => err
  | py m, py n => py (f m n)
  | int d m, py n => if d.Fits n then int d (d.wrap (f m n)) else err
  | py m, int d n => if d.Fits m then int d (d.wrap (f m n)) else err
  | int d m, int e n => match d.promote e with
    | some t => int t (t.wrap (f m n))
    | none => flt (g m n)
  | a, b => flt (g a.val b.val)

noncomputable instance : Add INum := ⟨arith (· + ·) (· + ·)⟩
noncomputable instance : Sub INum := ⟨arith (· - ·) (· - ·)⟩
noncomputable instance : Mul INum := ⟨arith (· * ·) (· * ·)⟩

/-- A function with values in the doubles. -/
noncomputable def map (f : ℝ → ℝ) : INum → INum
  | err => err
  | a => flt (f a.val)

/-- A function of two arguments with values in the doubles (`np.power` of integers by integers, which
the code does not use, is an integer in NumPy). -/
noncomputable def map₂ (f : ℝ → ℝ → ℝ) : INum → INum → INum
  | err, _ | _, err => err
  | int d m, py n => if d.Fits n then flt (f m n) else err
  | py m, int d n => if d.Fits m then flt (f m n) else err
  | a, b => flt (f a.val b.val)

/-- True division. -/
noncomputable instance : Div INum := ⟨map₂ (· / ·)⟩

/-- Negation. -/
noncomputable def neg : INum → INum
  | flt x => flt (-x)
  | py n => py (-n)
  | int d n => int d (d.wrap (-n))
  | err => err
noncomputable instance : Neg INum := ⟨neg⟩

/-- `**` with an integer written in the code. -/
noncomputable def npow : INum → ℕ → INum
  | flt x, k => flt (x ^ k)
  | py n, k => py (n ^ k)
  | int d n, k => int d (d.wrap (n ^ k))
  | err, _ => err
noncomputable instance : Pow INum ℕ := ⟨npow⟩

/-- The model writes every number of the code as a decimal. One without fractional part stands for
an integer: where the code has `11000.0`, `1.0` or `7.0` it meets doubles only, for which both are the
same (in `Aero.atmos` this needs an altitude that is not an array of integers, as in all calls
from the performance models). -/
def whole (m : ℕ) (s : Bool) (e : ℕ) : Bool := !s || decide (10 ^ e ∣ m)

noncomputable instance : OfScientific INum := ⟨fun m s e =>
  if whole m s e then py (if s then m / 10 ^ e else m * 10 ^ e : ℕ)
  else flt (OfScientific.ofScientific m s e)⟩

/-- `np.abs`. -/
noncomputable def abs : INum → INum
  | flt x => flt |x|
  | py n => py |n|
  | int d n => int d (d.wrap |n|)
  | err => err

open Classical in
/-- `np.where(a > c, x, y)`; comparisons with Python integers are exact. (The type that `x` and `y`
are converted to is not modelled; the code only selects between doubles.) -/
noncomputable def whereGt : INum → INum → INum → INum → INum
  | err, _, _, _ | _, err, _, _ | _, _, err, _ | _, _, _, err => err
  | a, c, x, y => if a.val > c.val then x else y

/-- `np.clip`: for an array of integers, Python integers beyond the range of its type do not
restrict. -/
noncomputable def clip : INum → INum → INum → INum
  | err, _, _ | _, err, _ | _, _, err => err
  | py n, py lo, py hi => py (min (max n lo) hi)
  | int d n, py lo, py hi => int d (min (max n lo) hi)
  | a, lo, hi => flt (clipR a.val lo.val hi.val)

open Classical in
/-- `np.interp`. -/
noncomputable def interp (x : INum) (xp fp : List INum) : INum :=
  if err ∈ x :: (xp ++ fp) then err else flt (interpR x.val (xp.map val) (fp.map val))

end INum

open INum in
/-- The NumPy backend (`/repo/openap/backends/numpy_backend.py:11-110`) on arrays of doubles and of
integers. -/
noncomputable def npInt : Backend INum where
  sqrt := map Real.sqrt
  exp := map Real.exp
  log := map Real.log
  power := map₂ (· ^ ·)
  sin := map Real.sin
  cos := map Real.cos
  tan := map Real.tan
  arcsin := map Real.arcsin
  arccos := map Real.arccos
  arctan := map Real.arctan
  arctan2 := map₂ atan2R
  abs := INum.abs
  whereGt := whereGt
  maximum := arith max max
  minimum := arith min min
  clip := clip
  interp := interp
  fmod := map₂ fmodR
  pi := flt Real.pi

end Verif
