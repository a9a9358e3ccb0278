import Mathlib.Analysis.InnerProductSpace.PiL2
import Mathlib.Geometry.Euclidean.Angle.Unoriented.Basic
import Mathlib.Geometry.Euclidean.Angle.Unoriented.TriangleInequality

/-!
# Specification of spherical geometry (independent of the model)

Points of the globe are unit vectors of `ℝ³`; the great-circle distance is the radius
times the angle between them.
-/

namespace Verif.Spec

/-- Degrees to radians. -/
noncomputable def rad (x : ℝ) : ℝ := x * Real.pi / 180

/-- Unit vector of the point with the given latitude and longitude in degrees. -/
noncomputable def globe (lat lon : ℝ) : EuclideanSpace ℝ (Fin 3) :=
  !₂[Real.cos (rad lat) * Real.cos (rad lon), Real.cos (rad lat) * Real.sin (rad lon),
    Real.sin (rad lat)]

/-- Unit tangent vector pointing north at the given point. -/
noncomputable def north (lat lon : ℝ) : EuclideanSpace ℝ (Fin 3) :=
  !₂[-Real.sin (rad lat) * Real.cos (rad lon), -Real.sin (rad lat) * Real.sin (rad lon),
    Real.cos (rad lat)]

/-- Unit tangent vector pointing east at the given longitude. -/
noncomputable def east (lon : ℝ) : EuclideanSpace ℝ (Fin 3) :=
  !₂[-Real.sin (rad lon), Real.cos (rad lon), 0]

/-- Great-circle distance at height `h` above a sphere of radius 6371 km. -/
noncomputable def greatCircle (lat1 lon1 lat2 lon2 h : ℝ) : ℝ :=
  (6371000 + h) * InnerProductGeometry.angle (globe lat1 lon1) (globe lat2 lon2)

/-- The point reached by travelling the central angle `δ` from `(lat, lon)` with initial
compass bearing `brg` (degrees clockwise from north). -/
noncomputable def travel (lat lon δ brg : ℝ) : EuclideanSpace ℝ (Fin 3) :=
  Real.cos δ • globe lat lon +
    Real.sin δ • (Real.cos (rad brg) • north lat lon + Real.sin (rad brg) • east lon)

end Verif.Spec
