import Verif.Prelude.Backend
import Verif.Model.Registry

/-!
# `openap/mass.py`

`from_range` (`/repo/openap/mass.py:6-45`).
-/

namespace Verif.Mass
open Verif.Tables Verif.Registry

/-- The arithmetic of `from_range`, `mass.py:30-45`, with `range` standing for
`ac["cruise"]["range"]`. -/
noncomputable def mass (mtow oew mfc range distance load_factor : ℝ) (fraction : Bool) : ℝ :=
  let range_fraction := clipR (distance / range) 0.2 1
  let max_fuel_weight := mfc * 0.8025
  let fuel_weight := range_fraction * max_fuel_weight
  let payload_weight := (mtow - max_fuel_weight - oew) * load_factor
  let mass := oew + fuel_weight + payload_weight
  if fraction then mass / mtow else mass

/-- `from_range`, `mass.py:6-45`: the record lookup and the arithmetic. A record without a
cruise range raises `KeyError`. -/
noncomputable def fromRange (db : DB) (typecode : Str) (distance load_factor : ℝ)
    (fraction useSynonym : Bool) : Except PyError ℝ :=
  match aircraft db typecode useSynonym with
  | .error e => .error e
  | .ok a =>
    match a.range with
    | none => .error .keyError
    | some r => .ok (mass (real a.mtow) (real a.oew) (real a.mfc) (real r) distance load_factor
        fraction)

end Verif.Mass
