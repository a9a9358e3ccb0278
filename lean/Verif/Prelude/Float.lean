import Verif.Prelude.Backend
import Mathlib.Algebra.Order.Round
import Mathlib.Data.Set.Finite.Lattice

/-!
# Floating-point arithmetic

The other backends compute with exact reals. This file gives the same code rounded arithmetic:
every literal, `+ - * /` and `sqrt` is rounded to a nearest representable number (IEEE 754, any
rule for ties), every library function has a relative error of at most 4 units in the last place.
A format is given by its precision and exponent range; `binary64` is NumPy's `float64` and
Python's `float`, `binary32` is JAX's default `float32`.

The carrier of values is all of `ℝ`, so inputs need not be representable. Nothing is assumed
about results beyond the largest finite number (overflow); theorems about `Machine` must show
that it does not happen.
-/

namespace Verif

/-- A binary floating-point format: `prec` bits of significand, exponents (of the last bit) from
`emin` to `emax`. -/
structure Format where
  prec : ℕ
  emin : ℤ
  emax : ℤ

namespace Format

/-- The finite numbers of the format (IEEE 754-2019, 3.3). -/
def Repr (f : Format) (x : ℝ) : Prop :=
  ∃ m e : ℤ, |m| < 2 ^ f.prec ∧ f.emin ≤ e ∧ e ≤ f.emax ∧ x = m * (2 : ℝ) ^ e

/-- The largest finite number. -/
noncomputable def max (f : Format) : ℝ := (2 ^ f.prec - 1) * (2 : ℝ) ^ f.emax

/-- The smallest normal number. -/
noncomputable def tiny (f : Format) : ℝ := (2 : ℝ) ^ (f.prec + f.emin - 1)

/-- Unit roundoff: half a unit in the last place of 1. -/
noncomputable def u (f : Format) : ℝ := (2 : ℝ) ^ (-f.prec : ℤ)

/-- Double precision. -/
def binary64 : Format := ⟨53, -1074, 971⟩

/-- Single precision. -/
def binary32 : Format := ⟨24, -149, 104⟩

/-- At least as precise and as wide as single precision, at most as precise as quadruple
precision. -/
structure Wide (f : Format) : Prop where
  prec : 24 ≤ f.prec
  quad : f.prec ≤ 113
  small : f.prec + f.emin - 1 ≤ -126
  large : 104 ≤ f.emax

theorem binary64_wide : binary64.Wide := ⟨by decide, by decide, by decide, by decide⟩
theorem binary32_wide : binary32.Wide := ⟨by decide, by decide, by decide, by decide⟩

/-- `got` approximates `exact` to 4 units in the last place (8 unit roundoffs), absolutely below
the smallest normal number; zero and the sign are exact. -/
def Acc (f : Format) (got exact : ℝ) : Prop :=
  (exact = 0 → got = 0) ∧ 0 ≤ got * exact ∧
  (|exact| ≤ f.max → |got - exact| ≤ 8 * f.u * Max.max |exact| f.tiny)

end Format

/-- A floating-point implementation: rounding to nearest and a mathematical library. The
accuracy of the library is the bound NumPy states for its `float64` functions (at most 4 units
in the last place). `powi` is Python's `x ** n` for an integer literal `n`. -/
structure Machine (f : Format) where
  rnd : ℝ → ℝ
  rnd_repr : ∀ x, |x| ≤ f.max → f.Repr (rnd x)
  rnd_near : ∀ x, |x| ≤ f.max → ∀ y, f.Repr y → |rnd x - x| ≤ |y - x|
  powi : ℝ → ℕ → ℝ
  powi_acc : ∀ x n, f.Acc (powi x n) (x ^ n)
  exp : ℝ → ℝ
  exp_acc : ∀ x, f.Acc (exp x) (Real.exp x)
  log : ℝ → ℝ
  log_acc : ∀ x, 0 < x → f.Acc (log x) (Real.log x)
  power : ℝ → ℝ → ℝ
  power_acc : ∀ x y, 0 < x → f.Acc (power x y) (x ^ y)
  sin : ℝ → ℝ
  sin_acc : ∀ x, f.Acc (sin x) (Real.sin x)
  cos : ℝ → ℝ
  cos_acc : ∀ x, f.Acc (cos x) (Real.cos x)
  tan : ℝ → ℝ
  tan_acc : ∀ x, Real.cos x ≠ 0 → f.Acc (tan x) (Real.tan x)
  arcsin : ℝ → ℝ
  arcsin_acc : ∀ x, |x| ≤ 1 → f.Acc (arcsin x) (Real.arcsin x)
  arccos : ℝ → ℝ
  arccos_acc : ∀ x, |x| ≤ 1 → f.Acc (arccos x) (Real.arccos x)
  arctan : ℝ → ℝ
  arctan_acc : ∀ x, f.Acc (arctan x) (Real.arctan x)
  arctan2 : ℝ → ℝ → ℝ
  arctan2_acc : ∀ y x, f.Acc (arctan2 y x) (atan2R y x)

/-- A value computed on the machine `M`. -/
structure Fl {f : Format} (M : Machine f) where
  val : ℝ

namespace Fl
variable {f : Format} {M : Machine f}

noncomputable instance : Add (Fl M) := ⟨fun x y => ⟨M.rnd (x.val + y.val)⟩⟩
noncomputable instance : Sub (Fl M) := ⟨fun x y => ⟨M.rnd (x.val - y.val)⟩⟩
noncomputable instance : Mul (Fl M) := ⟨fun x y => ⟨M.rnd (x.val * y.val)⟩⟩
noncomputable instance : Div (Fl M) := ⟨fun x y => ⟨M.rnd (x.val / y.val)⟩⟩
/-- Negation is exact. -/
noncomputable instance : Neg (Fl M) := ⟨fun x => ⟨-x.val⟩⟩
noncomputable instance : Pow (Fl M) ℕ := ⟨fun x n => ⟨M.powi x.val n⟩⟩
/-- A decimal literal is read as the nearest representable number. -/
noncomputable instance : OfScientific (Fl M) :=
  ⟨fun m s e => ⟨M.rnd (OfScientific.ofScientific m s e)⟩⟩

/-- Inner loop of `np.interp`: `slope * (x - x0) + f0`. -/
noncomputable def interpGo (x x0 f0 : Fl M) : List (Fl M) → List (Fl M) → Fl M
  | x1 :: xs, f1 :: fs => open Classical in
      if x.val < x1.val then (f1 - f0) / (x1 - x0) * (x - x0) + f0 else interpGo x x1 f1 xs fs
  | _, _ => f0

/-- `np.interp`. -/
noncomputable def interp (x : Fl M) : List (Fl M) → List (Fl M) → Fl M
  | x0 :: xs, f0 :: fs => open Classical in
      if x.val < x0.val then f0 else interpGo x x0 f0 xs fs
  | _, _ => ⟨0⟩

end Fl

open Classical in
/-- The NumPy backend (`/repo/openap/backends/numpy_backend.py:11-110`) on the machine `M`.
Comparisons, `maximum`, `minimum`, `clip`, `abs` and C's `fmod` are exact, `sqrt` is rounded
correctly. Arguments outside the domain of a function are errors (NaN) on a real machine and not
modelled here. -/
noncomputable def flt {f : Format} (M : Machine f) : Backend (Fl M) where
  sqrt := fun x => ⟨M.rnd (Real.sqrt x.val)⟩
  exp := fun x => ⟨M.exp x.val⟩
  log := fun x => ⟨M.log x.val⟩
  power := fun x y => ⟨M.power x.val y.val⟩
  sin := fun x => ⟨M.sin x.val⟩
  cos := fun x => ⟨M.cos x.val⟩
  tan := fun x => ⟨M.tan x.val⟩
  arcsin := fun x => ⟨M.arcsin x.val⟩
  arccos := fun x => ⟨M.arccos x.val⟩
  arctan := fun x => ⟨M.arctan x.val⟩
  arctan2 := fun y x => ⟨M.arctan2 y.val x.val⟩
  abs := fun x => ⟨|x.val|⟩
  whereGt := fun a c x y => if a.val > c.val then x else y
  maximum := fun x y => ⟨Max.max x.val y.val⟩
  minimum := fun x y => ⟨Min.min x.val y.val⟩
  clip := fun x lo hi => ⟨Min.min (Max.max x.val lo.val) hi.val⟩
  interp := Fl.interp
  fmod := fun x y => ⟨fmodR x.val y.val⟩
  pi := ⟨M.rnd Real.pi⟩

/-! ## A machine exists -/

namespace Format

theorem repr_finite (f : Format) : {x | f.Repr x}.Finite := by
  have h : {x | f.Repr x} ⊆ (fun q : ℤ × ℤ => (q.1 : ℝ) * (2 : ℝ) ^ q.2) ''
      (Set.Icc (-2 ^ f.prec) (2 ^ f.prec) ×ˢ Set.Icc f.emin f.emax) := by
    rintro x ⟨m, e, hm, h1, h2, rfl⟩
    have := abs_lt.1 hm
    exact ⟨(m, e), ⟨⟨this.1.le, this.2.le⟩, h1, h2⟩, rfl⟩
  exact Set.Finite.subset (((Set.finite_Icc _ _).prod (Set.finite_Icc _ _)).image _) h

theorem repr_zero (f : Format) (h : f.emin ≤ f.emax) : f.Repr 0 :=
  ⟨0, f.emin, by simp, le_rfl, h, by simp⟩

theorem exists_near (f : Format) (h : f.emin ≤ f.emax) (x : ℝ) :
    ∃ z, f.Repr z ∧ ∀ y, f.Repr y → |z - x| ≤ |y - x| := by
  obtain ⟨z, hz, hm⟩ := Set.exists_min_image {x | f.Repr x} (fun z => |z - x|) f.repr_finite
    ⟨0, f.repr_zero h⟩
  exact ⟨z, hz, hm⟩

theorem acc_self (f : Format) (x : ℝ) : f.Acc x x := by
  refine ⟨id, mul_self_nonneg x, fun _ => ?_⟩
  rw [sub_self, abs_zero]
  have : 0 ≤ f.u := by unfold u; positivity
  have := le_trans (abs_nonneg x) (le_max_left |x| f.tiny)
  positivity

end Format

/-- A machine with round-to-nearest and an exact library: the notion is not empty. -/
noncomputable def Machine.exactLib (f : Format) (h : f.emin ≤ f.emax) : Machine f where
  rnd := fun x => (f.exists_near h x).choose
  rnd_repr := fun x _ => (f.exists_near h x).choose_spec.1
  rnd_near := fun x _ => (f.exists_near h x).choose_spec.2
  powi := fun x n => x ^ n
  powi_acc := fun _ _ => f.acc_self _
  exp := Real.exp
  exp_acc := fun _ => f.acc_self _
  log := Real.log
  log_acc := fun _ _ => f.acc_self _
  power := fun x y => x ^ y
  power_acc := fun _ _ _ => f.acc_self _
  sin := Real.sin
  sin_acc := fun _ => f.acc_self _
  cos := Real.cos
  cos_acc := fun _ => f.acc_self _
  tan := Real.tan
  tan_acc := fun _ _ => f.acc_self _
  arcsin := Real.arcsin
  arcsin_acc := fun _ _ => f.acc_self _
  arccos := Real.arccos
  arccos_acc := fun _ _ => f.acc_self _
  arctan := Real.arctan
  arctan_acc := fun _ => f.acc_self _
  arctan2 := atan2R
  arctan2_acc := fun _ _ => f.acc_self _

end Verif
