import Mathlib.Analysis.SpecialFunctions.Pow.Real
import Mathlib.Analysis.SpecialFunctions.Exp
import Mathlib.Analysis.SpecialFunctions.Log.Deriv

/-! Rational bounds for real powers, reduced to integer powers of rationals. -/
namespace Verif.Num

theorem rpow_div_pow {x : ℝ} (hx : 0 < x) (p q : ℕ) (hq : 0 < q) :
    (x ^ ((p : ℝ) / q)) ^ q = x ^ p := by
  rw [← Real.rpow_natCast, ← Real.rpow_mul hx.le]
  have hq' : (q : ℝ) ≠ 0 := by positivity
  rw [div_mul_cancel₀ _ hq', Real.rpow_natCast]

/-- Lower bound of `x ^ e` for `x ≤ 1`. -/
theorem le_rpow_of_le_one {x y e : ℝ} (p q : ℕ) (hx : 0 < x) (hx1 : x ≤ 1) (hq : 0 < q)
    (hy : 0 ≤ y) (he : e ≤ (p : ℝ) / q) (h : y ^ q ≤ x ^ p) : y ≤ x ^ e := by
  have h1 : x ^ ((p : ℝ) / q) ≤ x ^ e := Real.rpow_le_rpow_of_exponent_ge hx hx1 he
  refine le_trans ?_ h1
  refine le_of_pow_le_pow_left₀ hq.ne' (by positivity) ?_
  rwa [rpow_div_pow hx p q hq]

/-- Upper bound of `x ^ e` for `x ≤ 1`. -/
theorem rpow_le_of_le_one {x y e : ℝ} (p q : ℕ) (hx : 0 < x) (hx1 : x ≤ 1) (hq : 0 < q)
    (hy : 0 ≤ y) (he : (p : ℝ) / q ≤ e) (h : x ^ p ≤ y ^ q) : x ^ e ≤ y := by
  have h1 : x ^ e ≤ x ^ ((p : ℝ) / q) := Real.rpow_le_rpow_of_exponent_ge hx hx1 he
  refine le_trans h1 ?_
  refine le_of_pow_le_pow_left₀ hq.ne' hy ?_
  rwa [rpow_div_pow hx p q hq]

/-- Upper bound of `x ^ e` for `1 ≤ x`. -/
theorem rpow_le_of_one_le {x y e : ℝ} (p q : ℕ) (hx1 : 1 ≤ x) (hq : 0 < q)
    (hy : 0 ≤ y) (he : e ≤ (p : ℝ) / q) (h : x ^ p ≤ y ^ q) : x ^ e ≤ y := by
  have hx : 0 < x := by linarith
  have h1 : x ^ e ≤ x ^ ((p : ℝ) / q) := Real.rpow_le_rpow_of_exponent_le hx1 he
  refine le_trans h1 ?_
  refine le_of_pow_le_pow_left₀ hq.ne' hy ?_
  rwa [rpow_div_pow hx p q hq]

/-- Lower bound of `x ^ e` for `1 ≤ x`. -/
theorem le_rpow_of_one_le {x y e : ℝ} (p q : ℕ) (hx1 : 1 ≤ x) (hq : 0 < q)
    (hy : 0 ≤ y) (he : (p : ℝ) / q ≤ e) (h : y ^ q ≤ x ^ p) : y ≤ x ^ e := by
  have hx : 0 < x := by linarith
  have h1 : x ^ ((p : ℝ) / q) ≤ x ^ e := Real.rpow_le_rpow_of_exponent_le hx1 he
  refine le_trans ?_ h1
  refine le_of_pow_le_pow_left₀ hq.ne' (by positivity) ?_
  rwa [rpow_div_pow hx p q hq]

end Verif.Num
