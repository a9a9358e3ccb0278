import Verif.Prelude.Backend
import Mathlib.Tactic.NormNum

/-! Computation rules for the NaN carrier. -/
namespace Verif.NR

@[simp] theorem val_add (x y : ℝ) : (val x : NR) + val y = val (x + y) := rfl
@[simp] theorem val_sub (x y : ℝ) : (val x : NR) - val y = val (x - y) := rfl
@[simp] theorem val_mul (x y : ℝ) : (val x : NR) * val y = val (x * y) := rfl
@[simp] theorem val_neg (x : ℝ) : -(val x : NR) = val (-x) := rfl
theorem val_div (x y : ℝ) (h : y ≠ 0) : (val x : NR) / val y = val (x / y) := by
  change (if y = 0 then nan else val (x / y)) = _; simp [h]
theorem val_pow (x : ℝ) (n : ℕ) (hn : n ≠ 0) : (val x : NR) ^ n = val (x ^ n) := by
  change (if n = 0 then val 1 else val (x ^ n)) = _; simp [hn]
@[simp] theorem val_sci (m : ℕ) (s : Bool) (e : ℕ) :
    (OfScientific.ofScientific m s e : NR) = val (OfScientific.ofScientific m s e) := rfl

@[simp] theorem nan_add (x : NR) : nan + x = nan := by cases x <;> rfl
@[simp] theorem add_nan (x : NR) : x + nan = nan := by cases x <;> rfl
@[simp] theorem nan_sub (x : NR) : nan - x = nan := by cases x <;> rfl
@[simp] theorem sub_nan (x : NR) : x - nan = nan := by cases x <;> rfl
@[simp] theorem nan_mul (x : NR) : nan * x = nan := by cases x <;> rfl
@[simp] theorem mul_nan (x : NR) : x * nan = nan := by cases x <;> rfl
@[simp] theorem neg_nan : -(nan : NR) = nan := rfl
@[simp] theorem nan_div (x : NR) : nan / x = nan := by cases x <;> rfl
@[simp] theorem div_nan (x : NR) : x / nan = nan := by cases x <;> rfl
theorem nan_pow (n : ℕ) (hn : n ≠ 0) : (nan : NR) ^ n = nan := by
  change (if n = 0 then val 1 else nan) = _; simp [hn]

@[simp] theorem map_val (f : ℝ → ℝ) (x : ℝ) : map f (val x) = val (f x) := rfl
@[simp] theorem map_nan (f : ℝ → ℝ) : map f nan = nan := rfl
@[simp] theorem map₂_val (f : ℝ → ℝ → ℝ) (x y : ℝ) : map₂ f (val x) (val y) = val (f x y) := rfl
@[simp] theorem map₂_nan (f : ℝ → ℝ → ℝ) (x : NR) : map₂ f x nan = nan := by cases x <;> rfl
@[simp] theorem nan_map₂ (f : ℝ → ℝ → ℝ) (x : NR) : map₂ f nan x = nan := by cases x <;> rfl
@[simp] theorem partialMap_nan (d : ℝ → Prop) (f : ℝ → ℝ) : partialMap d f nan = nan := rfl
theorem partialMap_val (d : ℝ → Prop) (f : ℝ → ℝ) (x : ℝ) (h : d x) :
    partialMap d f (val x) = val (f x) := by simp [partialMap, h]
theorem power_val (x y : ℝ) (h : 0 < x) : power (val x) (val y) = val (x ^ y) := by
  simp [power, h]
theorem power_nan (y : ℝ) (h : y ≠ 0) : power nan (val y) = nan := by simp [power, h]

end Verif.NR
