import Verif.Model.Construct
import Verif.Model.Registry

/-!
# The derived entry of an engine record

`prop.engine` adds one computed entry, `"fuel_ch"`, to the row it found
(`/repo/openap/prop.py:169-179`). The row itself is `Registry.engine`.
-/

namespace Verif.Registry
open Verif.Tables Verif.Construct

/-- `np.round(x, 8)`, `prop.py:174`: eight decimals, ties to even. -/
noncomputable def round8 (x : ℝ) : ℝ :=
  let n := ⌊x * 10 ^ 8⌋
  let r := x * 10 ^ 8 - n
  (if r < 1 / 2 then (n : ℝ) else if 1 / 2 < r then n + 1
    else if n % 2 = 0 then (n : ℝ) else n + 1) / 10 ^ 8

/-- `seleng["fuel_ch"]`, `prop.py:169-179`: the correction of specific fuel consumption per metre.
An empty cell is NaN and not finite. -/
noncomputable def fuelCh (e : EngineRow) : NR :=
  match cell e.cruiseSfc with
  | .nan => 6.7e-7
  | .val s =>
    let sfc_cr : NR := .val s
    let sfc_to := NR.val (real e.ff.toff) / (cell e.maxThrust / 1000.0)
    NR.map round8 ((sfc_cr - sfc_to) / (cell e.cruiseAlt * 0.3048))

/-- `engine(eng)["fuel_ch"]`. -/
noncomputable def engineFuelCh (db : DB) (eng : Str) : Except PyError NR :=
  (engine db eng).map fun r => fuelCh r.1

end Verif.Registry
