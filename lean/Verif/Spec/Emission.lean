import Mathlib.Analysis.SpecialFunctions.Exp
import Mathlib.Analysis.SpecialFunctions.Pow.Real

/-!
# Specification of the emission method (independent of the model)

Boeing Fuel Flow Method 2 (DuBois and Paynter 2006) with ambient temperature ratio
`θ = T / 288.15`, ambient pressure ratio `δ`, Mach number `M`:

* sea-level fuel flow `W θ^3.8 / δ · exp(0.2 M²)`;
* `EI(CO) = REI(CO) · θ^3.3 / δ^1.02`, the same for HC;
* `EI(NOx) = REI(NOx) · exp(H) · (δ^1.02 / θ^3.3)^0.5`.
-/

namespace Verif.Spec

/-- Ambient pressure ratio of the method as a function of altitude in feet. -/
noncomputable def bffmDelta (alt : ℝ) : ℝ := (1 - 0.0019812 * alt / 288.15) ^ (5.255876 : ℝ)

/-- Published sea-level equivalent fuel flow of one engine. -/
noncomputable def bffmFuel (w T alt M : ℝ) : ℝ :=
  w * (T / 288.15) ^ (3.8 : ℝ) / bffmDelta alt * Real.exp (0.2 * M ^ 2)

/-- Published CO/HC correction. -/
noncomputable def bffmRatio (T alt : ℝ) : ℝ :=
  (T / 288.15) ^ (3.3 : ℝ) / bffmDelta alt ^ (1.02 : ℝ)

/-- `v` is the value at `x` of the piecewise-linear curve through the four points
`(xs k, fs k)`, constant outside the first and last point. -/
def IsLto (xs fs : Fin 4 → ℝ) (x v : ℝ) : Prop :=
  (x ≤ xs 0 → v = fs 0) ∧ (xs 3 ≤ x → v = fs 3) ∧
  ∀ k : Fin 3, xs k.castSucc ≤ x → x ≤ xs k.succ →
    v * (xs k.succ - xs k.castSucc) =
      fs k.castSucc * (xs k.succ - x) + fs k.succ * (x - xs k.castSucc)

/-- The same curve continued along its first and last segments. -/
def IsLtoExt (xs fs : Fin 4 → ℝ) (x v : ℝ) : Prop :=
  ∀ k : Fin 3, (k = 0 ∨ xs k.castSucc ≤ x) → (k = 2 ∨ x ≤ xs k.succ) →
    v * (xs k.succ - xs k.castSucc) =
      fs k.castSucc * (xs k.succ - x) + fs k.succ * (x - xs k.castSucc)

end Verif.Spec
