import Verif.Spec.GenTime

/-!
# Distance of a climb or descent flown continuously (C149)
-/

namespace Verif.Spec

/-- The highest speed at altitude `u` for an aircraft that passes altitude 0 with speed `v0`, may gain
`a` m/s every second, needs `T u` seconds to get from 0 to `u` and may be no faster than `C w` at any
altitude `w` on the way. -/
noncomputable def speedUp (v0 a : ℝ) (T C : ℝ → ℝ) (u : ℝ) : ℝ :=
  min (v0 + a * T u) (⨅ w : Set.Icc (0:ℝ) u, (C w + a * (T u - T w)))

/-- Speed of the WRAP schedule at an altitude: accelerating up to 1500 ft and up to the altitude where
constant CAS begins, then constant CAS, then constant Mach. -/
noncomputable def climbSpeed (U C M : ℝ → ℝ) (hCas hMach u : ℝ) : ℝ :=
  if u < 1500 * 0.3048 then U u else if u < hCas then U u else if u < hMach then C u else M u

/-- The lowest speed at altitude `u` for an aircraft that passes altitude `b` with speed `v0`, may lose
`a` m/s every second, needs `T u` seconds to get from `b` down to `u` and may be no slower than `A w` at
any altitude `w` on the way. (Above `b`: the value at `b`.) -/
noncomputable def slowDown (v0 a b : ℝ) (T A : ℝ → ℝ) (u : ℝ) : ℝ :=
  max (v0 - a * T (min u b)) (⨆ w : Set.Icc (min u b) b, (A w - a * (T (min u b) - T w)))

/-- Speed of the WRAP schedule at an altitude of the descent: constant Mach, then constant CAS, then
slowing down to 1000 ft, then the approach speed. -/
noncomputable def descentSpeed (C M D : ℝ → ℝ) (vApp hMach hCas u : ℝ) : ℝ :=
  if hMach < u then M u else if hCas < u then C u else if 1000 * 0.3048 < u then D u else vApp

/-- The distance covered between altitudes `a` and `b` at speed `V` and vertical rate `r`. -/
noncomputable def flown (V r : ℝ → ℝ) (a b : ℝ) : ℝ := ∫ u in a..b, V u / r u

end Verif.Spec
