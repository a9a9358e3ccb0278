import Verif.Model.Tables

/-!
`/repo/openap/data/dragpolar`.
Generated by `tools/gen_data.py`; do not edit.
-/

namespace Verif.Data
open Verif.Tables

def polars0 : List (Str × PolarRow) := [
  /- a20n -/ ([97, 50, 48, 110], ⟨170000000000000, 380000000000000, 9000000000000000, 1760000000000000, 1700000000000000⟩),
  /- a319 -/ ([97, 51, 49, 57], ⟨200000000000000, 390000000000000, 9000000000000000, 1760000000000000, 1700000000000000⟩),
  /- a320 -/ ([97, 51, 50, 48], ⟨180000000000000, 390000000000000, 9000000000000000, 1760000000000000, 1700000000000000⟩),
  /- a321 -/ ([97, 51, 50, 49], ⟨200000000000000, 410000000000000, 9000000000000000, 1760000000000000, 1650000000000000⟩),
  /- a332 -/ ([97, 51, 51, 50], ⟨220000000000000, 410000000000000, 9000000000000000, 1500000000000000, 1500000000000000⟩),
  /- a333 -/ ([97, 51, 51, 51], ⟨220000000000000, 410000000000000, 9000000000000000, 1500000000000000, 1500000000000000⟩),
  /- a343 -/ ([97, 51, 52, 51], ⟨190000000000000, 400000000000000, 9000000000000000, 1500000000000000, 1500000000000000⟩),
  /- a359 -/ ([97, 51, 53, 57], ⟨220000000000000, 430000000000000, 9000000000000000, 1500000000000000, 1500000000000000⟩),
  /- a388 -/ ([97, 51, 56, 56], ⟨160000000000000, 500000000000000, 9000000000000000, 1500000000000000, 1500000000000000⟩),
  /- b38m -/ ([98, 51, 56, 109], ⟨200000000000000, 420000000000000, 9000000000000000, 1500000000000000, 1500000000000000⟩),
  /- b734 -/ ([98, 55, 51, 52], ⟨200000000000000, 440000000000000, 9000000000000000, 1500000000000000, 1500000000000000⟩),
  /- b737 -/ ([98, 55, 51, 55], ⟨220000000000000, 430000000000000, 9000000000000000, 1500000000000000, 1500000000000000⟩),
  /- b738 -/ ([98, 55, 51, 56], ⟨190000000000000, 420000000000000, 9000000000000000, 1500000000000000, 1500000000000000⟩),
  /- b739 -/ ([98, 55, 51, 57], ⟨200000000000000, 420000000000000, 9000000000000000, 1500000000000000, 1500000000000000⟩),
  /- b744 -/ ([98, 55, 52, 52], ⟨210000000000000, 490000000000000, 9000000000000000, 1980000000000000, 1500000000000000⟩),
  /- b748 -/ ([98, 55, 52, 56], ⟨210000000000000, 470000000000000, 9000000000000000, 1860000000000000, 1420000000000000⟩),
  /- b752 -/ ([98, 55, 53, 50], ⟨210000000000000, 490000000000000, 9000000000000000, 1870000000000000, 1670000000000000⟩),
  /- b772 -/ ([98, 55, 55, 50], ⟨240000000000000, 470000000000000, 9000000000000000, 1660000000000000, 1570000000000000⟩),
  /- b77w -/ ([98, 55, 55, 119], ⟨240000000000000, 430000000000000, 9000000000000000, 1560000000000000, 1540000000000000⟩),
  /- b788 -/ ([98, 55, 56, 56], ⟨170000000000000, 410000000000000, 9000000000000000, 1500000000000000, 1500000000000000⟩),
  /- b789 -/ ([98, 55, 56, 57], ⟨220000000000000, 420000000000000, 9000000000000000, 1500000000000000, 1500000000000000⟩),
  /- c550 -/ ([99, 53, 53, 48], ⟨280000000000000, 490000000000000, 17000000000000000, 1500000000000000, 1500000000000000⟩),
  /- e190 -/ ([101, 49, 57, 48], ⟨180000000000000, 440000000000000, 9000000000000000, 1500000000000000, 1500000000000000⟩),
  /- e195 -/ ([101, 49, 57, 53], ⟨210000000000000, 450000000000000, 9000000000000000, 1500000000000000, 1500000000000000⟩),
  /- e75l -/ ([101, 55, 53, 108], ⟨180000000000000, 420000000000000, 9000000000000000, 1500000000000000, 1500000000000000⟩),
  /- glf6 -/ ([103, 108, 102, 54], ⟨120000000000000, 470000000000000, 9000000000000000, 1500000000000000, 1500000000000000⟩)]

/-- All 26 files `data/dragpolar/*.yml`, by name. -/
def polars : List (Str × PolarRow) := polars0

/-- `data/dragpolar/_synonym.csv`. -/
def polarSyn : List (Str × Str) := [
  /- a124 b744 -/ ([97, 49, 50, 52], [98, 55, 52, 52]),
  /- a19n a20n -/ ([97, 49, 57, 110], [97, 50, 48, 110]),
  /- a21n a20n -/ ([97, 50, 49, 110], [97, 50, 48, 110]),
  /- a306 a332 -/ ([97, 51, 48, 54], [97, 51, 51, 50]),
  /- a310 a319 -/ ([97, 51, 49, 48], [97, 51, 49, 57]),
  /- a318 a319 -/ ([97, 51, 49, 56], [97, 51, 49, 57]),
  /- at72 e75l -/ ([97, 116, 55, 50], [101, 55, 53, 108]),
  /- at75 e75l -/ ([97, 116, 55, 53], [101, 55, 53, 108]),
  /- at76 e75l -/ ([97, 116, 55, 54], [101, 55, 53, 108]),
  /- b37m b38m -/ ([98, 51, 55, 109], [98, 51, 56, 109]),
  /- b39m b38m -/ ([98, 51, 57, 109], [98, 51, 56, 109]),
  /- b3xm b38m -/ ([98, 51, 120, 109], [98, 51, 56, 109]),
  /- b733 b734 -/ ([98, 55, 51, 51], [98, 55, 51, 52]),
  /- b735 b734 -/ ([98, 55, 51, 53], [98, 55, 51, 52]),
  /- b762 b752 -/ ([98, 55, 54, 50], [98, 55, 53, 50]),
  /- b763 b752 -/ ([98, 55, 54, 51], [98, 55, 53, 50]),
  /- b773 b77w -/ ([98, 55, 55, 51], [98, 55, 55, 119]),
  /- b77l b77w -/ ([98, 55, 55, 108], [98, 55, 55, 119]),
  /- c25a c550 -/ ([99, 50, 53, 97], [99, 53, 53, 48]),
  /- c525 c550 -/ ([99, 53, 50, 53], [99, 53, 53, 48]),
  /- c56x c550 -/ ([99, 53, 54, 120], [99, 53, 53, 48]),
  /- crj2 e75l -/ ([99, 114, 106, 50], [101, 55, 53, 108]),
  /- crj9 e75l -/ ([99, 114, 106, 57], [101, 55, 53, 108]),
  /- e145 e75l -/ ([101, 49, 52, 53], [101, 55, 53, 108]),
  /- e170 e75l -/ ([101, 49, 55, 48], [101, 55, 53, 108]),
  /- e290 e190 -/ ([101, 50, 57, 48], [101, 49, 57, 48]),
  /- glf5 glf6 -/ ([103, 108, 102, 53], [103, 108, 102, 54]),
  /- gl5t glf6 -/ ([103, 108, 53, 116], [103, 108, 102, 54]),
  /- lj45 glf6 -/ ([108, 106, 52, 53], [103, 108, 102, 54]),
  /- md11 b77w -/ ([109, 100, 49, 49], [98, 55, 55, 119]),
  /- pc24 glf6 -/ ([112, 99, 50, 52], [103, 108, 102, 54]),
  /- su95 e75l -/ ([115, 117, 57, 53], [101, 55, 53, 108])]

end Verif.Data
