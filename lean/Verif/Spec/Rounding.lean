import Verif.Prelude.Float

/-!
# Accuracy of floating-point results
-/

namespace Verif.Spec

/-- `got` differs from `exact` by at most `c` unit roundoffs, relative to `exact`. -/
def Accurate (f : Format) (c got exact : ℝ) : Prop := |got - exact| ≤ c * f.u * |exact|

/-- Magnitudes in which the accuracy of drag is claimed: area in m², drag-polar coefficients,
mass in kg, airspeed in kt, altitude in ft, vertical rate in ft/min with a flight path of at most
45 degrees. -/
structure DragRange (area cd0 k mass tas alt vs : ℝ) : Prop where
  hArea : 1 ≤ area ∧ area ≤ 2000
  hCd0 : 1 / 1000 ≤ cd0 ∧ cd0 ≤ 1
  hK : 1 / 1000 ≤ k ∧ k ≤ 1
  hMass : 100 ≤ mass ∧ mass ≤ 1000000
  hTas : 10 ≤ tas ∧ tas ≤ 2000
  hAlt : -1000 ≤ alt * 0.3048 ∧ alt * 0.3048 ≤ 15000
  hPath : |vs * 0.00508| ≤ tas * 0.514444

/-- Magnitudes in which the accuracy of fuel flow is claimed: coefficients of the fuel model, take-off
thrust of one engine in N, number of engines. -/
structure FuelRange (scale c1 c2 c3 maxThrust number : ℝ) : Prop where
  hScale : 1 / 1000 ≤ scale ∧ scale ≤ 1000
  hC1 : 1 / 2 ≤ c1 ∧ c1 ≤ 4
  hC2 : 1 / 2 ≤ c2 ∧ c2 ≤ 3
  hC3 : 1 / 10 ≤ c3 ∧ c3 ≤ 7 / 2
  hMax : 1000 ≤ maxThrust ∧ maxThrust ≤ 1000000
  hNum : 1 ≤ number ∧ number ≤ 10

/-- Magnitudes in which the accuracy of NOx, CO and HC is claimed: the fuel flows of the four
settings in kg/s, no two closer than a twelfth of the largest, and a bound `E` of the indices. -/
structure LtoRange (ff ei : Fin 4 → ℝ) (E : ℝ) : Prop where
  hFirst : 0 < ff 0
  hGap : ∀ k : Fin 3, ff 3 ≤ 12 * (ff k.succ - ff k.castSucc)
  hLast : 1 / 100 ≤ ff 3 ∧ ff 3 ≤ 10
  hIndex : ∀ k, 0 ≤ ei k ∧ ei k ≤ E
  hBound : 1 / 100 ≤ E ∧ E ≤ 10000

end Verif.Spec
