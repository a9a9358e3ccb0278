import Mathlib.Algebra.BigOperators.Group.Finset.Basic
import Mathlib.Analysis.SpecialFunctions.Pow.Real

/-!
# The BADA4 formulas

Thrust, drag and fuel coefficients as in the BADA 4 user manual, for Mach number `M`, pressure ratio `δ`
and temperature ratio `θ`. Coefficient lists are indexed from 0; missing coefficients count as 0.
-/

namespace Verif.Spec.Bada4
open Finset

/-- The `k`-th coefficient. -/
def nth (l : List ℝ) (k : ℕ) : ℝ := l.getD k 0

/-- Throttle parameter of the flat-rated regime. -/
noncomputable def flat (b : List ℝ) (M δ : ℝ) : ℝ :=
  ∑ i ∈ range 6, ∑ j ∈ range 6, nth b (6 * i + j) * M ^ j * δ ^ i

/-- Throttle parameter of the temperature-rated regime, with the total temperature ratio
`θ (1 + 0.2 M²)`. -/
noncomputable def hot (c : List ℝ) (M δ θ : ℝ) : ℝ :=
  (∑ i ∈ range 5, ∑ j ∈ range 5, nth c (5 * i + j) * M ^ j * (θ * (1 + 0.2 * M ^ 2)) ^ i) +
  ∑ i ∈ range 4, ∑ j ∈ range 5, nth c (25 + 5 * i + j) * M ^ j * δ ^ (i + 1)

/-- Thrust coefficient from the throttle parameter. -/
noncomputable def ct (a : List ℝ) (M throttle : ℝ) : ℝ :=
  ∑ i ∈ range 6, ∑ j ∈ range 6, nth a (6 * i + j) * M ^ j * throttle ^ i

/-- Idle thrust coefficient. -/
noncomputable def idleCt (ti : List ℝ) (M δ : ℝ) : ℝ :=
  ∑ i ∈ range 3, (nth ti (4 * i) / δ + nth ti (4 * i + 1) + nth ti (4 * i + 2) * δ +
    nth ti (4 * i + 3) * δ ^ 2) * M ^ i

/-- Drag coefficient below the maximum Mach number. -/
noncomputable def cd (scalar : ℝ) (d : List ℝ) (CL M : ℝ) : ℝ :=
  let m := 1 / Real.sqrt (1 - M ^ 2)
  scalar * ((∑ i ∈ range 5, nth d i * m ^ i) + (∑ i ∈ range 5, nth d (5 + i) * m ^ (3 * i)) * CL ^ 2 +
    (nth d 10 + ∑ i ∈ range 4, nth d (11 + i) * m ^ (14 + i)) * CL ^ 6)

/-- Drag coefficient at any Mach number. -/
noncomputable def cdAny (scalar : ℝ) (d : List ℝ) (Mmax CL M : ℝ) : ℝ :=
  open Classical in
  if M < Mmax then cd scalar d CL M
  else cd scalar d CL (Mmax - 0.01) +
    ((M - (Mmax - 0.01)) / 0.01) ^ (3 / 2 : ℝ) * (cd scalar d CL Mmax - cd scalar d CL (Mmax - 0.01))

/-- Idle fuel coefficient. -/
noncomputable def idleCf (fi : List ℝ) (M δ : ℝ) : ℝ :=
  ∑ i ∈ range 3, ∑ j ∈ range 3, nth fi (3 * i + j) * δ ^ j * M ^ i

/-- Fuel coefficient from the thrust coefficient. -/
noncomputable def cf (f : List ℝ) (M CT : ℝ) : ℝ :=
  ∑ i ∈ range 5, ∑ j ∈ range 5, nth f (5 * i + j) * CT ^ j * M ^ i

end Verif.Spec.Bada4
