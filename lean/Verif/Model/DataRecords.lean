import Verif.Model.Fuel
import Verif.Model.Emission

/-!
# Data records for any kind of number

The constructors store numbers read from the data files (`/repo/openap/drag.py:46-47`,
`/repo/openap/thrust.py:64-75`, `/repo/openap/fuel.py:82-90`, `/repo/openap/emission.py:36-42`).
`k` turns such a number into whatever the code computes with: a constant of a graph, a number without
derivative, an array entry.
-/

namespace Verif.Rec
variable {α : Type} (k : ℝ → α)

/-- `Drag.aircraft`. -/
def airframe (a : Drag.Airframe ℝ) : Drag.Airframe α :=
  ⟨k a.area, k a.span, k a.sweep, a.tc.map k, k a.mtow, a.rear⟩
/-- `Drag.polar`. -/
def polar (p : Drag.Polar ℝ) : Drag.Polar α :=
  ⟨k p.cd0, k p.k, k p.lambdaF, k p.cfc, k p.sfs⟩
/-- Attributes of `Thrust`. -/
def thrust (p : Thrust.Params ℝ) : Thrust.Params α :=
  ⟨k p.cruiseAlt, k p.bpr, k p.maxThrust, k p.number, k p.cruiseMach, k p.cruiseThrust⟩
/-- Coefficients of `FuelFlow`. -/
def fuel (p : Fuel.Params ℝ) : Fuel.Params α :=
  ⟨k p.scale, k p.c1, k p.c2, k p.c3, k p.maxThrust, k p.number⟩
/-- Tables of `Emission`. -/
def emission (p : Emission.Params ℝ) : Emission.Params α :=
  ⟨k p.number, fun i => k (p.ff i), fun i => k (p.nox i), fun i => k (p.co i), fun i => k (p.hc i)⟩

end Verif.Rec
