import Verif.Prelude.Float
import Verif.Model.Fuel
import Verif.Model.Emission

/-!
# Data records in floating point

The constructors store numbers read from the data files (`/repo/openap/drag.py:46-47`,
`/repo/openap/thrust.py:64-75`, `/repo/openap/fuel.py:82-90`, `/repo/openap/emission.py:36-42`);
reading them rounds once, so the records below are taken to hold the numbers that are in memory.
-/

namespace Verif.Fl
variable {f : Format} (M : Machine f)

/-- `Drag.aircraft`. -/
def airframe (a : Drag.Airframe ℝ) : Drag.Airframe (Fl M) :=
  ⟨⟨a.area⟩, ⟨a.span⟩, ⟨a.sweep⟩, a.tc.map Fl.mk, ⟨a.mtow⟩, a.rear⟩
/-- `Drag.polar`. -/
def polar (p : Drag.Polar ℝ) : Drag.Polar (Fl M) :=
  ⟨⟨p.cd0⟩, ⟨p.k⟩, ⟨p.lambdaF⟩, ⟨p.cfc⟩, ⟨p.sfs⟩⟩
/-- Attributes of `Thrust`. -/
def thrust (p : Thrust.Params ℝ) : Thrust.Params (Fl M) :=
  ⟨⟨p.cruiseAlt⟩, ⟨p.bpr⟩, ⟨p.maxThrust⟩, ⟨p.number⟩, ⟨p.cruiseMach⟩, ⟨p.cruiseThrust⟩⟩
/-- Coefficients of `FuelFlow`. -/
def fuel (p : Fuel.Params ℝ) : Fuel.Params (Fl M) :=
  ⟨⟨p.scale⟩, ⟨p.c1⟩, ⟨p.c2⟩, ⟨p.c3⟩, ⟨p.maxThrust⟩, ⟨p.number⟩⟩
/-- Attributes of `Emission`. -/
def emission (p : Emission.Params ℝ) : Emission.Params (Fl M) :=
  ⟨⟨p.number⟩, fun i => ⟨p.ff i⟩, fun i => ⟨p.nox i⟩, fun i => ⟨p.co i⟩, fun i => ⟨p.hc i⟩⟩

end Verif.Fl
