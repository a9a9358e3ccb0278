import Verif.Prelude.Dual
import Verif.Model.Fuel
import Verif.Model.Emission

/-!
# Data records under JAX

The constructors store numbers read from the data files (`/repo/openap/drag.py:46-47`,
`/repo/openap/thrust.py:64-75`, `/repo/openap/fuel.py:82-90`, `/repo/openap/emission.py:36-42`).
Under `jax.grad` they are constants: no tangent.
-/

namespace Verif.Dual

/-- `Drag.aircraft`. -/
def airframe (a : Drag.Airframe ℝ) : Drag.Airframe Dual :=
  ⟨const a.area, const a.span, const a.sweep, a.tc.map const, const a.mtow, a.rear⟩
/-- `Drag.polar`. -/
def polar (p : Drag.Polar ℝ) : Drag.Polar Dual :=
  ⟨const p.cd0, const p.k, const p.lambdaF, const p.cfc, const p.sfs⟩
/-- Attributes of `Thrust`. -/
def thrust (p : Thrust.Params ℝ) : Thrust.Params Dual :=
  ⟨const p.cruiseAlt, const p.bpr, const p.maxThrust, const p.number, const p.cruiseMach,
    const p.cruiseThrust⟩
/-- Coefficients of `FuelFlow`. -/
def fuel (p : Fuel.Params ℝ) : Fuel.Params Dual :=
  ⟨const p.scale, const p.c1, const p.c2, const p.c3, const p.maxThrust, const p.number⟩
/-- Tables of `Emission`. -/
def emission (p : Emission.Params ℝ) : Emission.Params Dual :=
  ⟨const p.number, fun k => const (p.ff k), fun k => const (p.nox k), fun k => const (p.co k),
    fun k => const (p.hc k)⟩

end Verif.Dual
