import Verif.Model.Tables

/-!
`/repo/openap/data/aircraft`.
Generated by `tools/gen_data.py`; do not edit.
-/

namespace Verif.Data
open Verif.Tables

def aircraft0 : List (Str × AircraftRow) := [
  /- a19n -/ ([97, 49, 57, 110], ⟨755000000000000000000, 625000000000000000000, 426000000000000000000, 297000000000000000000,
    some 3500000000000000000, some 8200000000000000, some 125000000000000000000,
    1240000000000000000, 358000000000000000, 250000000000000000, none,
    110000000000000000000, 7800000000000000, some 70000000000000000000,
    20000000000000000, false, [80, 87, 49, 49, 50, 52, 71, 49, 45, 74, 77],
    [[80, 87, 49, 49, 50, 52, 71, 49, 45, 74, 77],
      [76, 69, 65, 80, 45, 49, 65, 50, 52],
      [76, 69, 65, 80, 45, 49, 65, 50, 54]]⟩),
  /- a20n -/ ([97, 50, 48, 110], ⟨790000000000000000000, 660000000000000000000, 443000000000000000000, 297000000000000000000,
    some 3500000000000000000, some 8200000000000000, some 125000000000000000000,
    1240000000000000000, 358000000000000000, 250000000000000000, none,
    110000000000000000000, 7800000000000000, some 63000000000000000000,
    20000000000000000, false, [80, 87, 49, 49, 50, 55, 71, 45, 74, 77],
    [[80, 87, 49, 49, 50, 55, 71, 45, 74, 77],
      [80, 87, 49, 49, 50, 52, 71, 49, 45, 74, 77],
      [80, 87, 49, 49, 50, 57, 71, 45, 74, 77],
      [76, 69, 65, 80, 45, 49, 65, 50, 54],
      [76, 69, 65, 80, 45, 49, 65, 50, 52],
      [76, 69, 65, 80, 45, 49, 65, 50, 57]]⟩),
  /- a21n -/ ([97, 50, 49, 110], ⟨970000000000000000000, 778000000000000000000, 500000000000000000000, 330000000000000000000,
    some 3500000000000000000, some 8200000000000000, some 125000000000000000000,
    1280000000000000000, 358000000000000000, 250000000000000000, none,
    110000000000000000000, 7800000000000000, some 74000000000000000000,
    20000000000000000, false, [80, 87, 49, 49, 51, 51, 71, 45, 74, 77],
    [[80, 87, 49, 49, 51, 51, 71, 45, 74, 77],
      [80, 87, 49, 49, 51, 48, 71, 45, 74, 77],
      [76, 69, 65, 80, 45, 49, 65, 51, 50],
      [76, 69, 65, 80, 45, 49, 65, 51, 48],
      [76, 69, 65, 80, 45, 49, 65, 51, 51]]⟩),
  /- a318 -/ ([97, 51, 49, 56], ⟨680000000000000000000, 575000000000000000000, 395000000000000000000, 242100000000000000000,
    some 3500000000000000000, some 8200000000000000, some 125000000000000000000,
    1224000000000000000, 341000000000000000, 250000000000000000, none,
    110000000000000000000, 7800000000000000, some 28000000000000000000,
    20000000000000000, false, [67, 70, 77, 53, 54, 45, 53, 66, 57],
    [[67, 70, 77, 53, 54, 45, 53, 66, 56],
      [67, 70, 77, 53, 54, 45, 53, 66, 57],
      [80, 87, 54, 49, 50, 50, 65],
      [80, 87, 54, 49, 50, 52, 65]]⟩),
  /- a319 -/ ([97, 51, 49, 57], ⟨755000000000000000000, 625000000000000000000, 408000000000000000000, 301900000000000000000,
    some 3500000000000000000, some 8200000000000000, some 125000000000000000000,
    1240000000000000000, 358000000000000000, 250000000000000000, none,
    110000000000000000000, 7800000000000000, some 33000000000000000000,
    20000000000000000, false, [86, 50, 53, 50, 52, 45, 65, 53],
    [[67, 70, 77, 53, 54, 45, 53, 66, 53],
      [67, 70, 77, 53, 54, 45, 53, 66, 54],
      [67, 70, 77, 53, 54, 45, 53, 65, 52],
      [67, 70, 77, 53, 54, 45, 53, 65, 53],
      [67, 70, 77, 53, 54, 45, 53, 66, 55],
      [86, 50, 53, 50, 50, 45, 65, 53],
      [86, 50, 53, 50, 52, 45, 65, 53],
      [86, 50, 53, 50, 55, 77, 45, 65, 53]]⟩),
  /- a320 -/ ([97, 51, 50, 48], ⟨780000000000000000000, 660000000000000000000, 426000000000000000000, 242100000000000000000,
    some 3500000000000000000, some 8200000000000000, some 125000000000000000000,
    1240000000000000000, 358000000000000000, 250000000000000000, none,
    110000000000000000000, 7800000000000000, some 50000000000000000000,
    20000000000000000, false, [67, 70, 77, 53, 54, 45, 53, 66, 52],
    [[67, 70, 77, 53, 54, 45, 53, 45, 65, 49],
      [67, 70, 77, 53, 54, 45, 53, 45, 65, 49],
      [67, 70, 77, 53, 54, 45, 53, 65, 51],
      [67, 70, 77, 53, 54, 45, 53, 66, 52],
      [67, 70, 77, 53, 54, 45, 53, 66, 53],
      [67, 70, 77, 53, 54, 45, 53, 66, 54],
      [86, 50, 53, 48, 48, 45, 65, 49],
      [86, 50, 53, 50, 55, 45, 65, 53],
      [86, 50, 53, 50, 55, 69, 45, 65, 53]]⟩),
  /- a321 -/ ([97, 51, 50, 49], ⟨935000000000000000000, 778000000000000000000, 485000000000000000000, 300300000000000000000,
    some 3500000000000000000, some 8200000000000000, some 125000000000000000000,
    1280000000000000000, 358000000000000000, 250000000000000000, none,
    110000000000000000000, 7800000000000000, some 44000000000000000000,
    20000000000000000, false, [67, 70, 77, 53, 54, 45, 53, 66, 49],
    [[67, 70, 77, 53, 54, 45, 53, 66, 49],
      [67, 70, 77, 53, 54, 45, 53, 66, 50],
      [86, 50, 53, 51, 48, 45, 65, 53],
      [67, 70, 77, 53, 54, 45, 53, 66, 51],
      [67, 70, 77, 53, 54, 45, 53, 66, 49],
      [67, 70, 77, 53, 54, 45, 53, 66, 50],
      [86, 50, 53, 51, 51, 45, 65, 53],
      [86, 50, 53, 51, 48, 45, 65, 53]]⟩),
  /- a332 -/ ([97, 51, 51, 50], ⟨2300000000000000000000, 1820000000000000000000, 1202000000000000000000, 1390000000000000000000,
    some 3300000000000000000, some 8600000000000000, some 125000000000000000000,
    3616000000000000000, 603000000000000000, 297000000000000000, some 1100000000000000,
    110000000000000000000, 8200000000000000, some 125000000000000000000,
    20000000000000000, false, [84, 114, 101, 110, 116, 32, 55, 55, 50],
    [[67, 70, 54, 45, 56, 48, 69, 49, 65, 50],
      [67, 70, 54, 45, 56, 48, 69, 49, 65, 52],
      [67, 70, 54, 45, 56, 48, 69, 49, 65, 51],
      [80, 87, 52, 49, 54, 56, 65],
      [80, 87, 52, 49, 55, 48],
      [84, 114, 101, 110, 116, 32, 55, 55, 50]]⟩),
  /- a333 -/ ([97, 51, 51, 51], ⟨2420000000000000000000, 1880000000000000000000, 1227800000000000000000, 1390000000000000000000,
    some 3300000000000000000, some 8600000000000000, some 125000000000000000000,
    3616000000000000000, 603000000000000000, 297000000000000000, some 1100000000000000,
    110000000000000000000, 8200000000000000, some 105000000000000000000,
    20000000000000000, false, [84, 114, 101, 110, 116, 32, 55, 55, 50],
    [[67, 70, 54, 45, 56, 48, 69, 49, 65, 50],
      [67, 70, 54, 45, 56, 48, 69, 49, 65, 52],
      [67, 70, 54, 45, 56, 48, 69, 49, 65, 51],
      [80, 87, 52, 49, 54, 52],
      [80, 87, 52, 49, 54, 56],
      [80, 87, 52, 49, 54, 56, 65],
      [84, 114, 101, 110, 116, 32, 55, 54, 56],
      [84, 114, 101, 110, 116, 32, 55, 55, 50],
      [84, 114, 101, 110, 116, 32, 55, 55, 50]]⟩),
  /- a343 -/ ([97, 51, 52, 51], ⟨2760000000000000000000, 1900000000000000000000, 1300000000000000000000, 1478500000000000000000,
    some 3300000000000000000, some 8600000000000000, some 125000000000000000000,
    3631000000000000000, 603000000000000000, 297000000000000000, some 1100000000000000,
    110000000000000000000, 8200000000000000, some 133000000000000000000,
    40000000000000000, false, [67, 70, 77, 53, 54, 45, 53, 67, 51],
    [[67, 70, 77, 53, 54, 45, 53, 67, 50],
      [67, 70, 77, 53, 54, 45, 53, 67, 51],
      [67, 70, 77, 53, 54, 45, 53, 67, 52]]⟩),
  /- a359 -/ ([97, 51, 53, 57], ⟨2800000000000000000000, 2050000000000000000000, 1424000000000000000000, 1407950000000000000000,
    some 3400000000000000000, some 8900000000000000, some 131000000000000000000,
    4420000000000000000, 647500000000000000, 319000000000000000, none,
    110000000000000000000, 8500000000000000, some 150000000000000000000,
    20000000000000000, false, [84, 114, 101, 110, 116, 32, 88, 87, 66, 45, 56, 52],
    [[84, 114, 101, 110, 116, 32, 88, 87, 66, 45, 56, 52]]⟩),
  /- a388 -/ ([97, 51, 56, 56], ⟨5600000000000000000000, 3860000000000000000000, 2770000000000000000000, 3200000000000000000000,
    some 3400000000000000000, some 8900000000000000, some 131000000000000000000,
    8450000000000000000, 797500000000000000, 335000000000000000, some 800000000000000,
    128000000000000000000, 8500000000000000, some 148000000000000000000,
    40000000000000000, false, [71, 80, 55, 50, 55, 48],
    [[84, 114, 101, 110, 116, 32, 57, 55, 48, 45, 56, 52],
      [84, 114, 101, 110, 116, 32, 57, 55, 50, 45, 56, 52],
      [71, 80, 55, 50, 55, 48]]⟩),
  /- b37m -/ ([98, 51, 55, 109], ⟨800000000000000000000, 600000000000000000000, 450000000000000000000, 260000000000000000000,
    some 3400000000000000000, some 8200000000000000, some 125000000000000000000,
    1246000000000000000, 343200000000000000, 250000000000000000, none,
    110000000000000000000, 7800000000000000, some 71000000000000000000,
    20000000000000000, false, [76, 69, 65, 80, 45, 49, 66],
    [[76, 69, 65, 80, 45, 49, 66]]⟩),
  /- b38m -/ ([98, 51, 56, 109], ⟨820000000000000000000, 663000000000000000000, 450000000000000000000, 260000000000000000000,
    some 3400000000000000000, some 8200000000000000, some 125000000000000000000,
    1246000000000000000, 343200000000000000, 250000000000000000, none,
    110000000000000000000, 7900000000000000, some 66000000000000000000,
    20000000000000000, false, [76, 69, 65, 80, 45, 49, 66],
    [[76, 69, 65, 80, 45, 49, 66]]⟩),
  /- b39m -/ ([98, 51, 57, 109], ⟨880000000000000000000, 710000000000000000000, 450000000000000000000, 260000000000000000000,
    some 3400000000000000000, some 8200000000000000, some 125000000000000000000,
    1246000000000000000, 343200000000000000, 250000000000000000, none,
    110000000000000000000, 7900000000000000, some 66000000000000000000,
    20000000000000000, false, [76, 69, 65, 80, 45, 49, 66],
    [[76, 69, 65, 80, 45, 49, 66]]⟩),
  /- b3xm -/ ([98, 51, 120, 109], ⟨900000000000000000000, 700000000000000000000, 450000000000000000000, 260000000000000000000,
    some 3400000000000000000, some 8200000000000000, some 125000000000000000000,
    1246000000000000000, 343200000000000000, 250000000000000000, none,
    110000000000000000000, 7900000000000000, some 61000000000000000000,
    20000000000000000, false, [76, 69, 65, 80, 45, 49, 66],
    [[76, 69, 65, 80, 45, 49, 66]]⟩),
  /- b734 -/ ([98, 55, 51, 52], ⟨680000000000000000000, 562000000000000000000, 337000000000000000000, 200000000000000000000,
    some 3400000000000000000, some 8200000000000000, some 125000000000000000000,
    910400000000000000, 288800000000000000, 250000000000000000, some 1290000000000000,
    110000000000000000000, 7800000000000000, some 39000000000000000000,
    20000000000000000, false, [67, 70, 77, 53, 54, 45, 51, 66, 45, 50],
    [[67, 70, 77, 53, 54, 45, 51, 66, 45, 50],
      [67, 70, 77, 53, 54, 45, 51, 67, 45, 49]]⟩),
  /- b737 -/ ([98, 55, 51, 55], ⟨700000000000000000000, 586000000000000000000, 376000000000000000000, 260000000000000000000,
    some 3400000000000000000, some 8200000000000000, some 125000000000000000000,
    1246000000000000000, 343200000000000000, 250000000000000000, none,
    110000000000000000000, 7800000000000000, some 46000000000000000000,
    20000000000000000, false, [67, 70, 77, 53, 54, 45, 55, 66, 50, 54],
    [[67, 70, 77, 53, 54, 45, 55, 66, 50, 48],
      [67, 70, 77, 53, 54, 45, 55, 66, 50, 50],
      [67, 70, 77, 53, 54, 45, 55, 66, 50, 52],
      [67, 70, 77, 53, 54, 45, 55, 66, 50, 54],
      [67, 70, 77, 53, 54, 45, 55, 66, 50, 55]]⟩),
  /- b738 -/ ([98, 55, 51, 56], ⟨790000000000000000000, 663000000000000000000, 414000000000000000000, 260000000000000000000,
    some 3400000000000000000, some 8200000000000000, some 125000000000000000000,
    1246000000000000000, 343200000000000000, 250000000000000000, none,
    110000000000000000000, 7890000000000000, some 37000000000000000000,
    20000000000000000, false, [67, 70, 77, 53, 54, 45, 55, 66, 50, 54],
    [[67, 70, 77, 53, 54, 45, 55, 66, 50, 52],
      [67, 70, 77, 53, 54, 45, 55, 66, 50, 54],
      [67, 70, 77, 53, 54, 45, 55, 66, 50, 55]]⟩),
  /- b739 -/ ([98, 55, 51, 57], ⟨851000000000000000000, 713000000000000000000, 446000000000000000000, 260000000000000000000,
    some 3400000000000000000, some 8200000000000000, some 125000000000000000000,
    1246000000000000000, 343200000000000000, 250000000000000000, none,
    110000000000000000000, 7900000000000000, some 51000000000000000000,
    20000000000000000, false, [67, 70, 77, 53, 54, 45, 55, 66, 50, 55, 69],
    [[67, 70, 77, 53, 54, 45, 55, 66, 50, 52],
      [67, 70, 77, 53, 54, 45, 55, 66, 50, 54],
      [67, 70, 77, 53, 54, 45, 55, 66, 50, 55]]⟩),
  /- b744 -/ ([98, 55, 52, 52], ⟨3968000000000000000000, 2603000000000000000000, 1824000000000000000000, 2035000000000000000000,
    some 3650000000000000000, some 9200000000000000, some 137000000000000000000,
    5256000000000000000, 644000000000000000, 375000000000000000, some 940000000000000,
    110000000000000000000, 8500000000000000, some 134000000000000000000,
    40000000000000000, false, [67, 70, 54, 45, 56, 48, 67, 50, 66, 49, 70],
    [[80, 87, 52, 48, 54, 50],
      [67, 70, 54, 45, 56, 48, 67, 50, 66, 49, 70],
      [82, 66, 50, 49, 49, 45, 53, 50, 52, 71]]⟩),
  /- b748 -/ ([98, 55, 52, 56], ⟨4477000000000000000000, 3121000000000000000000, 2201000000000000000000, 2386000000000000000000,
    some 3650000000000000000, some 9200000000000000, some 131000000000000000000,
    5540000000000000000, 684000000000000000, 375000000000000000, some 940000000000000,
    110000000000000000000, 8500000000000000, some 148000000000000000000,
    40000000000000000, false, [71, 69, 110, 120, 45, 50, 66, 54, 55],
    [[71, 69, 110, 120, 45, 50, 66, 54, 55]]⟩),
  /- b752 -/ ([98, 55, 53, 50], ⟨1156000000000000000000, 922000000000000000000, 584000000000000000000, 435000000000000000000,
    some 3500000000000000000, some 8600000000000000, some 128000000000000000000,
    1823000000000000000, 380000000000000000, 250000000000000000, none,
    110000000000000000000, 8000000000000000, some 72000000000000000000,
    20000000000000000, false, [82, 66, 50, 49, 49, 45, 53, 51, 53, 69, 52],
    [[80, 87, 50, 48, 51, 55],
      [82, 66, 50, 49, 49, 45, 53, 51, 53, 69, 52]]⟩),
  /- b763 -/ ([98, 55, 54, 51], ⟨1587000000000000000000, 1360000000000000000000, 900000000000000000000, 632000000000000000000,
    some 3600000000000000000, some 8600000000000000, some 131000000000000000000,
    2833000000000000000, 475700000000000000, 315000000000000000, some 1150000000000000,
    110000000000000000000, 8000000000000000, some 114000000000000000000,
    20000000000000000, false, [67, 70, 54, 45, 56, 48, 67, 50, 66, 50],
    [[74, 84, 57, 68, 45, 55, 82, 52, 68],
      [80, 87, 52, 48, 53, 54],
      [67, 70, 54, 45, 56, 48, 67, 50, 66, 50]]⟩),
  /- b772 -/ ([98, 55, 55, 50], ⟨2970000000000000000000, 2130000000000000000000, 1380000000000000000000, 1710000000000000000000,
    some 3300000000000000000, some 8900000000000000, some 131000000000000000000,
    4278000000000000000, 609300000000000000, 316000000000000000, none,
    110000000000000000000, 8400000000000000, some 96000000000000000000,
    20000000000000000, false, [80, 87, 52, 48, 57, 48],
    [[71, 69, 57, 48, 45, 55, 55, 66],
      [80, 87, 52, 48, 55, 55],
      [84, 114, 101, 110, 116, 32, 56, 55, 55],
      [71, 69, 57, 48, 45, 57, 52, 66],
      [80, 87, 52, 48, 57, 48],
      [84, 114, 101, 110, 116, 32, 56, 57, 53]]⟩),
  /- b773 -/ ([98, 55, 55, 51], ⟨2993000000000000000000, 2376000000000000000000, 1605000000000000000000, 1712000000000000000000,
    some 3300000000000000000, some 8900000000000000, some 131000000000000000000,
    4278000000000000000, 609300000000000000, 316000000000000000, none,
    110000000000000000000, 8400000000000000, some 110000000000000000000,
    20000000000000000, false, [84, 114, 101, 110, 116, 32, 56, 57, 50],
    [[71, 69, 57, 48, 45, 49, 49, 48, 66, 49],
      [80, 87, 52, 48, 57, 48],
      [84, 114, 101, 110, 116, 32, 56, 57, 50]]⟩),
  /- b77w -/ ([98, 55, 55, 119], ⟨3515000000000000000000, 2513000000000000000000, 1678000000000000000000, 1813000000000000000000,
    some 3300000000000000000, some 8900000000000000, some 131000000000000000000,
    4368000000000000000, 648000000000000000, 316000000000000000, none,
    110000000000000000000, 8400000000000000, some 147000000000000000000,
    20000000000000000, false, [71, 69, 57, 48, 45, 49, 49, 53, 66],
    [[71, 69, 57, 48, 45, 49, 49, 53, 66]]⟩),
  /- b788 -/ ([98, 55, 56, 56], ⟨2280000000000000000000, 1720000000000000000000, 1190000000000000000000, 1262000000000000000000,
    some 5150000000000000000, some 9000000000000000, some 131000000000000000000,
    3770000000000000000, 601200000000000000, 322000000000000000, some 940000000000000,
    110000000000000000000, 8500000000000000, some 148000000000000000000,
    20000000000000000, false, [84, 114, 101, 110, 116, 32, 49, 48, 48, 48, 45, 69, 50],
    [[71, 69, 110, 120, 45, 49, 66, 55, 48],
      [71, 69, 110, 120, 45, 49, 66, 54, 55],
      [71, 69, 110, 120, 45, 49, 66, 54, 52],
      [84, 114, 101, 110, 116, 32, 49, 48, 48, 48, 45, 69, 50],
      [84, 114, 101, 110, 116, 32, 49, 48, 48, 48, 45, 67, 50],
      [84, 114, 101, 110, 116, 32, 49, 48, 48, 48, 45, 65, 50]]⟩),
  /- b789 -/ ([98, 55, 56, 57], ⟨2540000000000000000000, 1930000000000000000000, 1280000000000000000000, 1264000000000000000000,
    some 5150000000000000000, some 9000000000000000, some 131000000000000000000,
    3770000000000000000, 601200000000000000, 322000000000000000, some 940000000000000,
    110000000000000000000, 8500000000000000, some 140000000000000000000,
    20000000000000000, false, [84, 114, 101, 110, 116, 32, 49, 48, 48, 48, 45, 75, 50],
    [[71, 69, 110, 120, 45, 49, 66, 55, 53],
      [71, 69, 110, 120, 45, 49, 66, 55, 52],
      [84, 114, 101, 110, 116, 32, 49, 48, 48, 48, 45, 75, 50],
      [84, 114, 101, 110, 116, 32, 49, 48, 48, 48, 45, 74, 50],
      [84, 114, 101, 110, 116, 32, 49, 48, 48, 48, 45, 65, 50]]⟩),
  /- c550 -/ ([99, 53, 53, 48], ⟨68490000000000000000, 68040000000000000000, 36550000000000000000, 22040000000000000000,
    some 2700000000000000000, some 7000000000000000, some 131000000000000000000,
    318300000000000000, 159000000000000000, 0, some 1300000000000000,
    110000000000000000000, 6700000000000000, some 35000000000000000000,
    20000000000000000, true, [74, 84, 49, 53, 68, 45, 52],
    [[74, 84, 49, 53, 68, 45, 52]]⟩),
  /- crj9 -/ ([99, 114, 106, 57], ⟨374210000000000000000, 333400000000000000000, 204120000000000000000, 88880000000000000000,
    some 3200000000000000000, some 8200000000000000, some 125000000000000000000,
    710700000000000000, 232400000000000000, 230000000000000000, none,
    110000000000000000000, 7500000000000000, none,
    20000000000000000, false, [67, 70, 51, 52, 45, 56, 67, 53],
    [[67, 70, 51, 52, 45, 56, 67, 53]]⟩),
  /- e145 -/ ([101, 49, 52, 53], ⟨220000000000000000000, 193000000000000000000, 121100000000000000000, 51360000000000000000,
    some 3200000000000000000, some 7800000000000000, some 113000000000000000000,
    512000000000000000, 200400000000000000, 230000000000000000, none,
    110000000000000000000, 7200000000000000, some 22000000000000000000,
    20000000000000000, false, [65, 69, 51, 48, 48, 55, 65, 49],
    [[65, 69, 51, 48, 48, 55, 65, 49]]⟩),
  /- e170 -/ ([101, 49, 55, 48], ⟨342000000000000000000, 328000000000000000000, 211400000000000000000, 93350000000000000000,
    some 3200000000000000000, some 8200000000000000, some 125000000000000000000,
    727200000000000000, 260000000000000000, 230000000000000000, none,
    110000000000000000000, 7500000000000000, some 39000000000000000000,
    20000000000000000, false, [67, 70, 51, 52, 45, 56, 69, 53],
    [[67, 70, 51, 52, 45, 56, 69, 53],
      [67, 70, 51, 52, 45, 56, 69, 54]]⟩),
  /- e190 -/ ([101, 49, 57, 48], ⟨503000000000000000000, 430000000000000000000, 277530000000000000000, 161530000000000000000,
    some 3200000000000000000, some 8200000000000000, some 125000000000000000000,
    925000000000000000, 287200000000000000, 230000000000000000, none,
    110000000000000000000, 7800000000000000, some 44000000000000000000,
    20000000000000000, false, [67, 70, 51, 52, 45, 49, 48, 69, 53],
    [[67, 70, 51, 52, 45, 49, 48, 69, 53]]⟩),
  /- e195 -/ ([101, 49, 57, 53], ⟨507900000000000000000, 450000000000000000000, 285830000000000000000, 161530000000000000000,
    some 3200000000000000000, some 8200000000000000, some 125000000000000000000,
    925000000000000000, 287200000000000000, 230000000000000000, none,
    110000000000000000000, 7800000000000000, some 43000000000000000000,
    20000000000000000, false, [67, 70, 51, 52, 45, 49, 48, 69, 53],
    [[67, 70, 51, 52, 45, 49, 48, 69, 53]]⟩),
  /- e75l -/ ([101, 55, 53, 108], ⟨387900000000000000000, 340000000000000000000, 218900000000000000000, 116250000000000000000,
    some 3200000000000000000, some 8200000000000000, some 125000000000000000000,
    727200000000000000, 260000000000000000, 230000000000000000, none,
    110000000000000000000, 7500000000000000, some 33000000000000000000,
    20000000000000000, false, [67, 70, 51, 52, 45, 56, 69, 54],
    [[67, 70, 51, 52, 45, 56, 69, 53],
      [67, 70, 51, 52, 45, 56, 69, 54]]⟩),
  /- glf6 -/ ([103, 108, 102, 54], ⟨452000000000000000000, 379000000000000000000, 240000000000000000000, 210000000000000000000,
    none, some 9250000000000000, some 160000000000000000000,
    1192000000000000000, 303600000000000000, 360000000000000000, some 1000000000000000,
    120000000000000000000, 8500000000000000, some 130000000000000000000,
    20000000000000000, true, [66, 82, 55, 48, 48, 45, 55, 50, 53, 65, 49, 45, 49, 50],
    [[66, 82, 55, 48, 48, 45, 55, 50, 53, 65, 49, 45, 49, 50]]⟩)]

/-- All 37 files `data/aircraft/*.yml`, by name. -/
def aircraft : List (Str × AircraftRow) := aircraft0

/-- `data/aircraft/_synonym.csv`. -/
def aircraftSyn : List (Str × Str) := [
  /- a124 b744 -/ ([97, 49, 50, 52], [98, 55, 52, 52]),
  /- a306 a332 -/ ([97, 51, 48, 54], [97, 51, 51, 50]),
  /- a310 a318 -/ ([97, 51, 49, 48], [97, 51, 49, 56]),
  /- at72 e145 -/ ([97, 116, 55, 50], [101, 49, 52, 53]),
  /- at75 e145 -/ ([97, 116, 55, 53], [101, 49, 52, 53]),
  /- at76 e145 -/ ([97, 116, 55, 54], [101, 49, 52, 53]),
  /- b733 b734 -/ ([98, 55, 51, 51], [98, 55, 51, 52]),
  /- b735 b734 -/ ([98, 55, 51, 53], [98, 55, 51, 52]),
  /- b762 b763 -/ ([98, 55, 54, 50], [98, 55, 54, 51]),
  /- b77l b77w -/ ([98, 55, 55, 108], [98, 55, 55, 119]),
  /- c25a c550 -/ ([99, 50, 53, 97], [99, 53, 53, 48]),
  /- c525 c550 -/ ([99, 53, 50, 53], [99, 53, 53, 48]),
  /- c56x c550 -/ ([99, 53, 54, 120], [99, 53, 53, 48]),
  /- crj2 e145 -/ ([99, 114, 106, 50], [101, 49, 52, 53]),
  /- crj9 e75l -/ ([99, 114, 106, 57], [101, 55, 53, 108]),
  /- e290 e190 -/ ([101, 50, 57, 48], [101, 49, 57, 48]),
  /- glf5 glf6 -/ ([103, 108, 102, 53], [103, 108, 102, 54]),
  /- gl5t glf6 -/ ([103, 108, 53, 116], [103, 108, 102, 54]),
  /- lj45 glf6 -/ ([108, 106, 52, 53], [103, 108, 102, 54]),
  /- md11 b773 -/ ([109, 100, 49, 49], [98, 55, 55, 51]),
  /- pc24 c550 -/ ([112, 99, 50, 52], [99, 53, 53, 48]),
  /- su95 e170 -/ ([115, 117, 57, 53], [101, 49, 55, 48])]

end Verif.Data
