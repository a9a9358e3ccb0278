import Verif.Model.Tables

/-!
`/repo/openap/data/engine/engines.csv`.
Generated by `tools/gen_data.py`; do not edit.
-/

namespace Verif.Data
open Verif.Tables

def engines0 : List EngineRow := [
  /- TFE731-2-2B -/ ⟨[84, 70, 69, 55, 51, 49, 45, 50, 45, 50, 66], some 26400000000000000, some 156000000000000000000, none, none, none, none,
    ⟨240000000000000, 670000000000000, 1730000000000000, 2050000000000000⟩,
    ⟨28200000000000000, 59000000000000000, 130800000000000000, 152500000000000000⟩,
    ⟨586000000000000000, 223800000000000000, 20300000000000000, 13940000000000000⟩,
    ⟨200400000000000000, 42600000000000000, 1280000000000000, 1140000000000000⟩⟩,
  /- TFE731-3 -/ ⟨[84, 70, 69, 55, 51, 49, 45, 51], some 26400000000000000, some 165000000000000000000, some 36340000000000000000, some 8000000000000000, some 232000000000000, some 400000000000000000000,
    ⟨260000000000000, 720000000000000, 1860000000000000, 2250000000000000⟩,
    ⟨37200000000000000, 69200000000000000, 160200000000000000, 191500000000000000⟩,
    ⟨477000000000000000, 155600000000000000, 16200000000000000, 11300000000000000⟩,
    ⟨90400000000000000, 14100000000000000, 720000000000000, 620000000000000⟩⟩,
  /- AE3007A -/ ⟨[65, 69, 51, 48, 48, 55, 65], some 52300000000000000, some 337300000000000000000, none, none, none, none,
    ⟨490000000000000, 1170000000000000, 3150000000000000, 3770000000000000⟩,
    ⟨38300000000000000, 77900000000000000, 174700000000000000, 205400000000000000⟩,
    ⟨173500000000000000, 32800000000000000, 9200000000000000, 7500000000000000⟩,
    ⟨25100000000000000, 6400000000000000, 2900000000000000, 2500000000000000⟩⟩,
  /- AE3007A1 -/ ⟨[65, 69, 51, 48, 48, 55, 65, 49], some 47700000000000000, some 349100000000000000000, none, none, none, none,
    ⟨461000000000000, 1130000000000000, 3180000000000000, 3826000000000000⟩,
    ⟨41700000000000000, 71300000000000000, 140700000000000000, 161700000000000000⟩,
    ⟨399100000000000000, 67200000000000000, 5600000000000000, 7500000000000000⟩,
    ⟨38500000000000000, 300000000000000, 300000000000000, 300000000000000⟩⟩,
  /- AE3007A1/1 -/ ⟨[65, 69, 51, 48, 48, 55, 65, 49, 47, 49], some 47700000000000000, some 347400000000000000000, none, none, none, none,
    ⟨459000000000000, 1125000000000000, 3163000000000000, 3805000000000000⟩,
    ⟨41700000000000000, 71200000000000000, 140100000000000000, 161000000000000000⟩,
    ⟨400700000000000000, 68000000000000000, 5500000000000000, 7400000000000000⟩,
    ⟨38800000000000000, 300000000000000, 300000000000000, 300000000000000⟩⟩,
  /- AE3007A1/3 -/ ⟨[65, 69, 51, 48, 48, 55, 65, 49, 47, 51], some 48100000000000000, some 330500000000000000000, none, none, none, none,
    ⟨449000000000000, 1077000000000000, 2999000000000000, 3589000000000000⟩,
    ⟨42700000000000000, 69300000000000000, 134900000000000000, 154200000000000000⟩,
    ⟨384700000000000000, 76200000000000000, 5000000000000000, 5000000000000000⟩,
    ⟨38100000000000000, 300000000000000, 300000000000000, 300000000000000⟩⟩,
  /- AE3007A1E -/ ⟨[65, 69, 51, 48, 48, 55, 65, 49, 69], some 47200000000000000, some 371600000000000000000, none, none, none, none,
    ⟨475000000000000, 1200000000000000, 3425000000000000, 4122000000000000⟩,
    ⟨42600000000000000, 74200000000000000, 149100000000000000, 171700000000000000⟩,
    ⟨379700000000000000, 56300000000000000, 6400000000000000, 7700000000000000⟩,
    ⟨35200000000000000, 300000000000000, 300000000000000, 300000000000000⟩⟩,
  /- AE3007A1P -/ ⟨[65, 69, 51, 48, 48, 55, 65, 49, 80], some 47700000000000000, some 347400000000000000000, none, none, none, none,
    ⟨460000000000000, 1126000000000000, 3163000000000000, 3806000000000000⟩,
    ⟨41700000000000000, 71200000000000000, 140100000000000000, 161000000000000000⟩,
    ⟨399700000000000000, 67900000000000000, 5500000000000000, 7400000000000000⟩,
    ⟨38600000000000000, 300000000000000, 300000000000000, 300000000000000⟩⟩,
  /- AE3007A2 -/ ⟨[65, 69, 51, 48, 48, 55, 65, 50], some 47900000000000000, some 422300000000000000000, none, none, none, none,
    ⟨550000000000000, 1380000000000000, 3880000000000000, 4660000000000000⟩,
    ⟨43900000000000000, 79000000000000000, 159900000000000000, 186100000000000000⟩,
    ⟨341700000000000000, 40800000000000000, 7400000000000000, 7100000000000000⟩,
    ⟨17100000000000000, 0, 0, 0⟩⟩,
  /- AE3007A3 -/ ⟨[65, 69, 51, 48, 48, 55, 65, 51], some 47200000000000000, some 330000000000000000000, none, none, none, none,
    ⟨448000000000000, 1076000000000000, 2995000000000000, 3583000000000000⟩,
    ⟨41200000000000000, 69300000000000000, 134800000000000000, 154000000000000000⟩,
    ⟨412900000000000000, 76500000000000000, 5000000000000000, 5000000000000000⟩,
    ⟨41000000000000000, 300000000000000, 300000000000000, 300000000000000⟩⟩,
  /- AE3007C -/ ⟨[65, 69, 51, 48, 48, 55, 67], some 52000000000000000, some 296200000000000000000, none, none, none, none,
    ⟨377000000000000, 943000000000000, 2527000000000000, 3010000000000000⟩,
    ⟨33600000000000000, 67800000000000000, 145700000000000000, 168800000000000000⟩,
    ⟨263200000000000000, 42800000000000000, 11600000000000000, 9400000000000000⟩,
    ⟨49530000000000000, 6960000000000000, 2910000000000000, 2540000000000000⟩⟩,
  /- AE3007C1 -/ ⟨[65, 69, 51, 48, 48, 55, 67, 49], some 51000000000000000, some 314600000000000000000, none, none, none, none,
    ⟨418000000000000, 991000000000000, 2689000000000000, 3222000000000000⟩,
    ⟨31400000000000000, 67100000000000000, 176000000000000000, 202000000000000000⟩,
    ⟨360400000000000000, 16200000000000000, 0, 0⟩,
    ⟨58800000000000000, 2100000000000000, 100000000000000, 0⟩⟩,
  /- AE3007C2 -/ ⟨[65, 69, 51, 48, 48, 55, 67, 50], some 49900000000000000, some 327290000000000000000, none, none, none, none,
    ⟨472000000000000, 985000000000000, 2714000000000000, 3263000000000000⟩,
    ⟨31400000000000000, 65600000000000000, 181100000000000000, 212500000000000000⟩,
    ⟨230900000000000000, 19700000000000000, 0, 0⟩,
    ⟨25700000000000000, 2200000000000000, 100000000000000, 0⟩⟩,
  /- D-30 -/ ⟨[68, 45, 51, 48], some 8500000000000000, some 666400000000000000000, none, none, none, none,
    ⟨1300000000000000, 3500000000000000, 9750000000000000, 11500000000000000⟩,
    ⟨36000000000000000, 70000000000000000, 163000000000000000, 191000000000000000⟩,
    ⟨603000000000000000, 145000000000000000, 32000000000000000, 27000000000000000⟩,
    ⟨436000000000000000, 15000000000000000, 1400000000000000, 1200000000000000⟩⟩,
  /- D-30KP-2 -/ ⟨[68, 45, 51, 48, 75, 80, 45, 50], some 22000000000000000, some 1176000000000000000000, none, none, none, none,
    ⟨2100000000000000, 4900000000000000, 14200000000000000, 16700000000000000⟩,
    ⟨33000000000000000, 63000000000000000, 135000000000000000, 165000000000000000⟩,
    ⟨624000000000000000, 154000000000000000, 28000000000000000, 22000000000000000⟩,
    ⟨133000000000000000, 27000000000000000, 8000000000000000, 7000000000000000⟩⟩,
  /- D-30KU -/ ⟨[68, 45, 51, 48, 75, 85], some 23500000000000000, some 1127000000000000000000, none, none, none, none,
    ⟨2150000000000000, 5000000000000000, 13000000000000000, 15200000000000000⟩,
    ⟨27000000000000000, 51000000000000000, 126000000000000000, 163000000000000000⟩,
    ⟨540000000000000000, 118000000000000000, 37000000000000000, 28000000000000000⟩,
    ⟨105000000000000000, 12000000000000000, 4000000000000000, 3000000000000000⟩⟩,
  /- D-30KU-154 -/ ⟨[68, 45, 51, 48, 75, 85, 45, 49, 53, 52], some 23000000000000000, some 1075000000000000000000, none, none, none, none,
    ⟨2070000000000000, 4200000000000000, 11000000000000000, 14200000000000000⟩,
    ⟨29000000000000000, 51000000000000000, 116000000000000000, 145000000000000000⟩,
    ⟨777000000000000000, 182000000000000000, 36000000000000000, 30000000000000000⟩,
    ⟨127000000000000000, 19000000000000000, 5000000000000000, 4000000000000000⟩⟩,
  /- PS-90A -/ ⟨[80, 83, 45, 57, 48, 65], some 44800000000000000, some 1546000000000000000000, none, none, none, none,
    ⟨1675000000000000, 5110000000000000, 12790000000000000, 15320000000000000⟩,
    ⟨49200000000000000, 89600000000000000, 233300000000000000, 305200000000000000⟩,
    ⟨151800000000000000, 12000000000000000, 4500000000000000, 4100000000000000⟩,
    ⟨13200000000000000, 7900000000000000, 1300000000000000, 1000000000000000⟩⟩,
  /- PS-90A1 -/ ⟨[80, 83, 45, 57, 48, 65, 49], some 43600000000000000, some 1697000000000000000000, none, none, none, none,
    ⟨1740000000000000, 5330000000000000, 13540000000000000, 16540000000000000⟩,
    ⟨49200000000000000, 98800000000000000, 266800000000000000, 356900000000000000⟩,
    ⟨129100000000000000, 10700000000000000, 4000000000000000, 3800000000000000⟩,
    ⟨7200000000000000, 1600000000000000, 1000000000000000, 1000000000000000⟩⟩,
  /- PS-90A2 -/ ⟨[80, 83, 45, 57, 48, 65, 50], some 43200000000000000, some 1569500000000000000000, none, none, none, none,
    ⟨1710000000000000, 4910000000000000, 11170000000000000, 13800000000000000⟩,
    ⟨43000000000000000, 93100000000000000, 255200000000000000, 327000000000000000⟩,
    ⟨167900000000000000, 19100000000000000, 6500000000000000, 4400000000000000⟩,
    ⟨28800000000000000, 2100000000000000, 1400000000000000, 1100000000000000⟩⟩,
  /- BR700-710A1-10 -/ ⟨[66, 82, 55, 48, 48, 45, 55, 49, 48, 65, 49, 45, 49, 48], some 42000000000000000, some 656100000000000000000, none, none, none, none,
    ⟨890000000000000, 2140000000000000, 5940000000000000, 7130000000000000⟩,
    ⟨46900000000000000, 76800000000000000, 150700000000000000, 187900000000000000⟩,
    ⟨278200000000000000, 47800000000000000, 9300000000000000, 10400000000000000⟩,
    ⟨10900000000000000, 500000000000000, 200000000000000, 200000000000000⟩⟩,
  /- BR700-710A2-20 -/ ⟨[66, 82, 55, 48, 48, 45, 55, 49, 48, 65, 50, 45, 50, 48], some 41900000000000000, some 656100000000000000000, none, none, none, none,
    ⟨890000000000000, 2140000000000000, 5950000000000000, 7140000000000000⟩,
    ⟨46700000000000000, 76700000000000000, 150300000000000000, 187300000000000000⟩,
    ⟨280000000000000000, 48100000000000000, 9300000000000000, 10400000000000000⟩,
    ⟨11200000000000000, 500000000000000, 200000000000000, 200000000000000⟩⟩,
  /- BR700-710C4-11 -/ ⟨[66, 82, 55, 48, 48, 45, 55, 49, 48, 67, 52, 45, 49, 49], some 40500000000000000, some 687700000000000000000, none, none, none, none,
    ⟨830000000000000, 2150000000000000, 6170000000000000, 7470000000000000⟩,
    ⟨45000000000000000, 77100000000000000, 154300000000000000, 195200000000000000⟩,
    ⟨315700000000000000, 49200000000000000, 9200000000000000, 10400000000000000⟩,
    ⟨22900000000000000, 500000000000000, 200000000000000, 200000000000000⟩⟩,
  /- BR700-715A1-30 -/ ⟨[66, 82, 55, 48, 48, 45, 55, 49, 53, 65, 49, 45, 51, 48], some 46800000000000000, some 832300000000000000000, none, none, none, none,
    ⟨1000000000000000, 2400000000000000, 6860000000000000, 8310000000000000⟩,
    ⟨39500000000000000, 87500000000000000, 164300000000000000, 209700000000000000⟩,
    ⟨197200000000000000, 40500000000000000, 6300000000000000, 6600000000000000⟩,
    ⟨1100000000000000, 200000000000000, 600000000000000, 500000000000000⟩⟩,
  /- BR700-715B1-30 -/ ⟨[66, 82, 55, 48, 48, 45, 55, 49, 53, 66, 49, 45, 51, 48], some 46000000000000000, some 896800000000000000000, none, none, none, none,
    ⟨1030000000000000, 2570000000000000, 7500000000000000, 9100000000000000⟩,
    ⟨41400000000000000, 90100000000000000, 182700000000000000, 242800000000000000⟩,
    ⟨186000000000000000, 35900000000000000, 6300000000000000, 7200000000000000⟩,
    ⟨700000000000000, 200000000000000, 600000000000000, 300000000000000⟩⟩,
  /- BR700-715C1-30 -/ ⟨[66, 82, 55, 48, 48, 45, 55, 49, 53, 67, 49, 45, 51, 48], some 45400000000000000, some 953300000000000000000, none, none, none, none,
    ⟨1050000000000000, 2720000000000000, 8050000000000000, 9840000000000000⟩,
    ⟨42800000000000000, 92300000000000000, 200500000000000000, 279200000000000000⟩,
    ⟨178500000000000000, 32300000000000000, 6400000000000000, 8000000000000000⟩,
    ⟨600000000000000, 200000000000000, 600000000000000, 100000000000000⟩⟩,
  /- BR700-725A1-12 -/ ⟨[66, 82, 55, 48, 48, 45, 55, 50, 53, 65, 49, 45, 49, 50], some 43500000000000000, some 757000000000000000000, none, none, none, none,
    ⟨850000000000000, 2210000000000000, 6500000000000000, 7890000000000000⟩,
    ⟨33800000000000000, 78100000000000000, 133200000000000000, 169200000000000000⟩,
    ⟨419000000000000000, 59300000000000000, 3200000000000000, 4000000000000000⟩,
    ⟨30000000000000000, 0, 0, 0⟩⟩,
  /- BR700-710D5-21 -/ ⟨[66, 82, 55, 48, 48, 45, 55, 49, 48, 68, 53, 45, 50, 49], some 46200000000000000, some 684300000000000000000, none, none, none, none,
    ⟨800000000000000, 1970000000000000, 5640000000000000, 6820000000000000⟩,
    ⟨30700000000000000, 91100000000000000, 202000000000000000, 266300000000000000⟩,
    ⟨349700000000000000, 28400000000000000, 6300000000000000, 3200000000000000⟩,
    ⟨21300000000000000, 100000000000000, 0, 200000000000000⟩⟩,
  /- CFM56-2A -/ ⟨[67, 70, 77, 53, 54, 45, 50, 65], some 60000000000000000, some 1067600000000000000000, none, none, none, none,
    ⟨1300000000000000, 3180000000000000, 9110000000000000, 11140000000000000⟩,
    ⟨43000000000000000, 87000000000000000, 173000000000000000, 204000000000000000⟩,
    ⟨235000000000000000, 34000000000000000, 9000000000000000, 9000000000000000⟩,
    ⟨11300000000000000, 800000000000000, 400000000000000, 400000000000000⟩⟩,
  /- CFM56-2B-1 -/ ⟨[67, 70, 77, 53, 54, 45, 50, 66, 45, 49], some 60000000000000000, some 978600000000000000000, none, none, none, none,
    ⟨1280000000000000, 3110000000000000, 8190000000000000, 9850000000000000⟩,
    ⟨40000000000000000, 82000000000000000, 160000000000000000, 185000000000000000⟩,
    ⟨307000000000000000, 42000000000000000, 9000000000000000, 9000000000000000⟩,
    ⟨18300000000000000, 800000000000000, 500000000000000, 400000000000000⟩⟩,
  /- CFM56-2-C5 -/ ⟨[67, 70, 77, 53, 54, 45, 50, 45, 67, 53], some 60000000000000000, some 978600000000000000000, none, none, none, none,
    ⟨1280000000000000, 3110000000000000, 8190000000000000, 9850000000000000⟩,
    ⟨40000000000000000, 82000000000000000, 160000000000000000, 185000000000000000⟩,
    ⟨307000000000000000, 42000000000000000, 9000000000000000, 9000000000000000⟩,
    ⟨18300000000000000, 800000000000000, 500000000000000, 400000000000000⟩⟩,
  /- CFM56-3-B1 -/ ⟨[67, 70, 77, 53, 54, 45, 51, 45, 66, 49], some 51000000000000000, some 894100000000000000000, none, none, none, none,
    ⟨1140000000000000, 2900000000000000, 7920000000000000, 9460000000000000⟩,
    ⟨39000000000000000, 83000000000000000, 155000000000000000, 177000000000000000⟩,
    ⟨344000000000000000, 38000000000000000, 9500000000000000, 9000000000000000⟩,
    ⟨22800000000000000, 800000000000000, 500000000000000, 400000000000000⟩⟩,
  /- CFM56-3B-2 -/ ⟨[67, 70, 77, 53, 54, 45, 51, 66, 45, 50], some 51000000000000000, some 983000000000000000000, none, none, none, none,
    ⟨1190000000000000, 3140000000000000, 8780000000000000, 10560000000000000⟩,
    ⟨41000000000000000, 87000000000000000, 167000000000000000, 194000000000000000⟩,
    ⟨301000000000000000, 34000000000000000, 9000000000000000, 9000000000000000⟩,
    ⟨17500000000000000, 730000000000000, 470000000000000, 360000000000000⟩⟩,
  /- CFM56-3C-1 -/ ⟨[67, 70, 77, 53, 54, 45, 51, 67, 45, 49], some 51000000000000000, some 822900000000000000000, none, none, none, none,
    ⟨1110000000000000, 2730000000000000, 7320000000000000, 8720000000000000⟩,
    ⟨38000000000000000, 80000000000000000, 147000000000000000, 166000000000000000⟩,
    ⟨381000000000000000, 42000000000000000, 10000000000000000, 9000000000000000⟩,
    ⟨28600000000000000, 800000000000000, 500000000000000, 500000000000000⟩⟩,
  /- CFM56-5-A1 -/ ⟨[67, 70, 77, 53, 54, 45, 53, 45, 65, 49], some 60000000000000000, some 1112000000000000000000, none, none, none, none,
    ⟨1011000000000000, 2910000000000000, 8620000000000000, 10510000000000000⟩,
    ⟨40000000000000000, 80000000000000000, 196000000000000000, 246000000000000000⟩,
    ⟨176000000000000000, 25000000000000000, 9000000000000000, 9000000000000000⟩,
    ⟨14000000000000000, 4000000000000000, 2300000000000000, 2300000000000000⟩⟩,
  /- CFM56-5A3 -/ ⟨[67, 70, 77, 53, 54, 45, 53, 65, 51], some 60000000000000000, some 1178800000000000000000, some 222410000000000000000, some 8000000000000000, some 169000000000000, some 350000000000000000000,
    ⟨1044000000000000, 3070000000000000, 9250000000000000, 11310000000000000⟩,
    ⟨41000000000000000, 83000000000000000, 211000000000000000, 264000000000000000⟩,
    ⟨162000000000000000, 24000000000000000, 9000000000000000, 9000000000000000⟩,
    ⟨13000000000000000, 3000000000000000, 2000000000000000, 2000000000000000⟩⟩,
  /- CFM56-5A4 -/ ⟨[67, 70, 77, 53, 54, 45, 53, 65, 52], some 60000000000000000, some 978900000000000000000, some 222410000000000000000, some 8000000000000000, none, some 350000000000000000000,
    ⟨950000000000000, 2610000000000000, 7400000000000000, 8970000000000000⟩,
    ⟨40400000000000000, 85100000000000000, 191100000000000000, 226400000000000000⟩,
    ⟨203000000000000000, 31000000000000000, 11000000000000000, 11000000000000000⟩,
    ⟨17500000000000000, 5000000000000000, 2300000000000000, 2300000000000000⟩⟩,
  /- CFM56-5A5 -/ ⟨[67, 70, 77, 53, 54, 45, 53, 65, 53], some 60000000000000000, some 1045300000000000000000, some 222410000000000000000, some 8000000000000000, none, some 350000000000000000000,
    ⟨980000000000000, 2760000000000000, 7990000000000000, 9720000000000000⟩,
    ⟨42900000000000000, 89400000000000000, 199800000000000000, 247900000000000000⟩,
    ⟨185000000000000000, 28000000000000000, 11000000000000000, 11000000000000000⟩,
    ⟨15300000000000000, 4500000000000000, 2300000000000000, 2300000000000000⟩⟩,
  /- CFM56-5B1 -/ ⟨[67, 70, 77, 53, 54, 45, 53, 66, 49], some 57000000000000000, some 1334500000000000000000, some 259770000000000000000, some 8000000000000000, some 169000000000000, some 350000000000000000000,
    ⟨1170000000000000, 3640000000000000, 11130000000000000, 13590000000000000⟩,
    ⟨46000000000000000, 108000000000000000, 272000000000000000, 351000000000000000⟩,
    ⟨284000000000000000, 15700000000000000, 5000000000000000, 5000000000000000⟩,
    ⟨32100000000000000, 1200000000000000, 1000000000000000, 1000000000000000⟩⟩,
  /- CFM56-5B1/2 -/ ⟨[67, 70, 77, 53, 54, 45, 53, 66, 49, 47, 50], some 57000000000000000, some 1334500000000000000000, none, none, none, none,
    ⟨1290000000000000, 3690000000000000, 11040000000000000, 13450000000000000⟩,
    ⟨47300000000000000, 70200000000000000, 149100000000000000, 277500000000000000⟩,
    ⟨340000000000000000, 384000000000000000, 25000000000000000, 6000000000000000⟩,
    ⟨17000000000000000, 91000000000000000, 1000000000000000, 1000000000000000⟩⟩]

def engines1 : List EngineRow := [
  /- CFM56-5B1/2P -/ ⟨[67, 70, 77, 53, 54, 45, 53, 66, 49, 47, 50, 80], some 57000000000000000, some 1335000000000000000000, none, none, none, none,
    ⟨1200000000000000, 3700000000000000, 10700000000000000, 13200000000000000⟩,
    ⟨41000000000000000, 73000000000000000, 164000000000000000, 233000000000000000⟩,
    ⟨365000000000000000, 231000000000000000, 19000000000000000, 8000000000000000⟩,
    ⟨29000000000000000, 37000000000000000, 1000000000000000, 1000000000000000⟩⟩,
  /- CFM56-5B1/3 -/ ⟨[67, 70, 77, 53, 54, 45, 53, 66, 49, 47, 51], some 55000000000000000, some 1334000000000000000000, none, none, none, none,
    ⟨1090000000000000, 3470000000000000, 10630000000000000, 13180000000000000⟩,
    ⟨44500000000000000, 92800000000000000, 197700000000000000, 261800000000000000⟩,
    ⟨279200000000000000, 25300000000000000, 2000000000000000, 3800000000000000⟩,
    ⟨13700000000000000, 500000000000000, 200000000000000, 300000000000000⟩⟩,
  /- CFM56-5B1/P -/ ⟨[67, 70, 77, 53, 54, 45, 53, 66, 49, 47, 80], some 57000000000000000, some 1334500000000000000000, none, none, none, none,
    ⟨1100000000000000, 3450000000000000, 10580000000000000, 12950000000000000⟩,
    ⟨45000000000000000, 107000000000000000, 262000000000000000, 330000000000000000⟩,
    ⟨198000000000000000, 20000000000000000, 9000000000000000, 9000000000000000⟩,
    ⟨37000000000000000, 5000000000000000, 2000000000000000, 1000000000000000⟩⟩,
  /- CFM56-5B2 -/ ⟨[67, 70, 77, 53, 54, 45, 53, 66, 50], some 56000000000000000, some 1379000000000000000000, some 259770000000000000000, some 8000000000000000, some 154000000000000, some 350000000000000000000,
    ⟨1190000000000000, 3760000000000000, 11580000000000000, 14260000000000000⟩,
    ⟨47000000000000000, 110000000000000000, 285000000000000000, 378000000000000000⟩,
    ⟨274000000000000000, 14000000000000000, 5000000000000000, 5000000000000000⟩,
    ⟨30400000000000000, 1200000000000000, 1000000000000000, 1000000000000000⟩⟩,
  /- CFM56-5B2/2 -/ ⟨[67, 70, 77, 53, 54, 45, 53, 66, 50, 47, 50], some 57000000000000000, some 1379000000000000000000, none, none, none, none,
    ⟨1310000000000000, 3770000000000000, 11320000000000000, 14060000000000000⟩,
    ⟨48200000000000000, 72400000000000000, 158600000000000000, 295700000000000000⟩,
    ⟨337000000000000000, 358000000000000000, 17000000000000000, 4000000000000000⟩,
    ⟨17000000000000000, 84000000000000000, 1000000000000000, 1000000000000000⟩⟩,
  /- CFM56-5B2/2P -/ ⟨[67, 70, 77, 53, 54, 45, 53, 66, 50, 47, 50, 80], some 56000000000000000, some 1379000000000000000000, none, none, none, none,
    ⟨1300000000000000, 3900000000000000, 11100000000000000, 13900000000000000⟩,
    ⟨42000000000000000, 76000000000000000, 175000000000000000, 294000000000000000⟩,
    ⟨355000000000000000, 214000000000000000, 16000000000000000, 7000000000000000⟩,
    ⟨27000000000000000, 33000000000000000, 1000000000000000, 1000000000000000⟩⟩,
  /- CFM56-5B2/3 -/ ⟨[67, 70, 77, 53, 54, 45, 53, 66, 50, 47, 51], some 55000000000000000, some 1379000000000000000000, none, none, none, none,
    ⟨1110000000000000, 3580000000000000, 11070000000000000, 13850000000000000⟩,
    ⟨45300000000000000, 94200000000000000, 207600000000000000, 282600000000000000⟩,
    ⟨267200000000000000, 23300000000000000, 2300000000000000, 4500000000000000⟩,
    ⟨12200000000000000, 500000000000000, 200000000000000, 400000000000000⟩⟩,
  /- CFM56-5B2/P -/ ⟨[67, 70, 77, 53, 54, 45, 53, 66, 50, 47, 80], some 56000000000000000, some 1379000000000000000000, none, none, none, none,
    ⟨1130000000000000, 3560000000000000, 10990000000000000, 13610000000000000⟩,
    ⟨46000000000000000, 109000000000000000, 274000000000000000, 351000000000000000⟩,
    ⟨195000000000000000, 19000000000000000, 9000000000000000, 8000000000000000⟩,
    ⟨36000000000000000, 5000000000000000, 2000000000000000, 1000000000000000⟩⟩,
  /- CFM56-5B3/2P -/ ⟨[67, 70, 77, 53, 54, 45, 53, 66, 51, 47, 50, 80], some 56000000000000000, some 1424000000000000000000, none, none, none, none,
    ⟨1300000000000000, 4000000000000000, 11500000000000000, 14700000000000000⟩,
    ⟨43000000000000000, 78000000000000000, 186000000000000000, 320000000000000000⟩,
    ⟨345000000000000000, 199000000000000000, 13000000000000000, 6000000000000000⟩,
    ⟨25000000000000000, 29000000000000000, 1000000000000000, 1000000000000000⟩⟩,
  /- CFM56-5B3/3 -/ ⟨[67, 70, 77, 53, 54, 45, 53, 66, 51, 47, 51], some 54000000000000000, some 1423000000000000000000, none, none, none, none,
    ⟨1130000000000000, 3690000000000000, 11530000000000000, 14620000000000000⟩,
    ⟨46000000000000000, 95600000000000000, 218300000000000000, 309000000000000000⟩,
    ⟨255900000000000000, 21400000000000000, 2500000000000000, 5400000000000000⟩,
    ⟨11000000000000000, 500000000000000, 200000000000000, 500000000000000⟩⟩,
  /- CFM56-5B3/P -/ ⟨[67, 70, 77, 53, 54, 45, 53, 66, 51, 47, 80], some 56000000000000000, some 1423500000000000000000, none, none, none, none,
    ⟨1150000000000000, 3660000000000000, 11410000000000000, 14300000000000000⟩,
    ⟨47000000000000000, 112000000000000000, 285000000000000000, 373000000000000000⟩,
    ⟨192000000000000000, 17000000000000000, 9000000000000000, 8000000000000000⟩,
    ⟨35000000000000000, 5000000000000000, 2000000000000000, 1000000000000000⟩⟩,
  /- CFM56-5B4 -/ ⟨[67, 70, 77, 53, 54, 45, 53, 66, 52], some 59000000000000000, some 1179000000000000000000, some 222410000000000000000, some 8000000000000000, some 154000000000000, some 350000000000000000000,
    ⟨1070000000000000, 3260000000000000, 9610000000000000, 11660000000000000⟩,
    ⟨43000000000000000, 100000000000000000, 233000000000000000, 287000000000000000⟩,
    ⟨319000000000000000, 23300000000000000, 5000000000000000, 5000000000000000⟩,
    ⟨38700000000000000, 1300000000000000, 1000000000000000, 1000000000000000⟩⟩,
  /- CFM56-5B4/2 -/ ⟨[67, 70, 77, 53, 54, 45, 53, 66, 52, 47, 50], some 57000000000000000, some 1179000000000000000000, none, none, none, none,
    ⟨1210000000000000, 3350000000000000, 9750000000000000, 11800000000000000⟩,
    ⟨44900000000000000, 61300000000000000, 125800000000000000, 166100000000000000⟩,
    ⟨371000000000000000, 438000000000000000, 49000000000000000, 16000000000000000⟩,
    ⟨22000000000000000, 114000000000000000, 1000000000000000, 1000000000000000⟩⟩,
  /- CFM56-5B4/2P -/ ⟨[67, 70, 77, 53, 54, 45, 53, 66, 52, 47, 50, 80], some 59000000000000000, some 1201000000000000000000, none, none, none, none,
    ⟨1200000000000000, 3400000000000000, 9500000000000000, 11400000000000000⟩,
    ⟨39000000000000000, 65000000000000000, 136000000000000000, 184000000000000000⟩,
    ⟨401000000000000000, 291000000000000000, 36000000000000000, 14000000000000000⟩,
    ⟨36000000000000000, 53000000000000000, 2000000000000000, 1000000000000000⟩⟩,
  /- CFM56-5B4/3 -/ ⟨[67, 70, 77, 53, 54, 45, 53, 66, 52, 47, 51], some 57000000000000000, some 1201000000000000000000, none, none, none, none,
    ⟨1020000000000000, 3160000000000000, 9390000000000000, 11420000000000000⟩,
    ⟨42200000000000000, 88500000000000000, 172300000000000000, 215700000000000000⟩,
    ⟨320700000000000000, 32400000000000000, 1600000000000000, 2500000000000000⟩,
    ⟨19200000000000000, 500000000000000, 200000000000000, 200000000000000⟩⟩,
  /- CFM56-5B4/P -/ ⟨[67, 70, 77, 53, 54, 45, 53, 66, 52, 47, 80], some 59000000000000000, some 1201100000000000000000, none, none, none, none,
    ⟨1040000000000000, 3120000000000000, 9350000000000000, 11320000000000000⟩,
    ⟨43000000000000000, 100000000000000000, 232000000000000000, 280000000000000000⟩,
    ⟨234000000000000000, 23000000000000000, 9000000000000000, 9000000000000000⟩,
    ⟨46000000000000000, 5000000000000000, 2000000000000000, 2000000000000000⟩⟩,
  /- CFM56-5B5/3 -/ ⟨[67, 70, 77, 53, 54, 45, 53, 66, 53, 47, 51], some 60000000000000000, some 979000000000000000000, none, none, none, none,
    ⟨920000000000000, 2640000000000000, 7430000000000000, 8940000000000000⟩,
    ⟨38100000000000000, 80300000000000000, 140100000000000000, 164200000000000000⟩,
    ⟨417700000000000000, 49400000000000000, 2000000000000000, 1500000000000000⟩,
    ⟨35500000000000000, 800000000000000, 300000000000000, 300000000000000⟩⟩,
  /- CFM56-5B5/P -/ ⟨[67, 70, 77, 53, 54, 45, 53, 66, 53, 47, 80], some 59000000000000000, some 978900000000000000000, none, none, none, none,
    ⟨940000000000000, 2600000000000000, 7420000000000000, 8910000000000000⟩,
    ⟨38000000000000000, 87000000000000000, 185000000000000000, 219000000000000000⟩,
    ⟨300000000000000000, 34000000000000000, 10000000000000000, 9000000000000000⟩,
    ⟨62000000000000000, 7000000000000000, 2000000000000000, 2000000000000000⟩⟩,
  /- CFM56-5B6/2 -/ ⟨[67, 70, 77, 53, 54, 45, 53, 66, 54, 47, 50], some 57000000000000000, some 1045000000000000000000, none, none, none, none,
    ⟨1110000000000000, 3150000000000000, 8270000000000000, 9980000000000000⟩,
    ⟨39000000000000000, 103200000000000000, 104100000000000000, 135100000000000000⟩,
    ⟨461000000000000000, 177500000000000000, 121800000000000000, 44800000000000000⟩,
    ⟨34000000000000000, 2000000000000000, 2000000000000000, 1000000000000000⟩⟩,
  /- CFM56-5B6/2P -/ ⟨[67, 70, 77, 53, 54, 45, 53, 66, 54, 47, 50, 80], some 60000000000000000, some 1045000000000000000000, none, none, none, none,
    ⟨1100000000000000, 3100000000000000, 8100000000000000, 9700000000000000⟩,
    ⟨36000000000000000, 87000000000000000, 110000000000000000, 142000000000000000⟩,
    ⟨448000000000000000, 215000000000000000, 74000000000000000, 31000000000000000⟩,
    ⟨46000000000000000, 4000000000000000, 2000000000000000, 2000000000000000⟩⟩,
  /- CFM56-5B6/3 -/ ⟨[67, 70, 77, 53, 54, 45, 53, 66, 54, 47, 51], some 59000000000000000, some 1045000000000000000000, none, none, none, none,
    ⟨950000000000000, 2790000000000000, 8000000000000000, 9650000000000000⟩,
    ⟨39400000000000000, 82900000000000000, 148800000000000000, 177300000000000000⟩,
    ⟨383900000000000000, 43500000000000000, 1700000000000000, 1700000000000000⟩,
    ⟨29300000000000000, 700000000000000, 300000000000000, 200000000000000⟩⟩,
  /- CFM56-5B6/P -/ ⟨[67, 70, 77, 53, 54, 45, 53, 66, 54, 47, 80], some 60000000000000000, some 1045300000000000000000, none, none, none, none,
    ⟨970000000000000, 2750000000000000, 7990000000000000, 9610000000000000⟩,
    ⟨40000000000000000, 92000000000000000, 196000000000000000, 236000000000000000⟩,
    ⟨277000000000000000, 29000000000000000, 10000000000000000, 9000000000000000⟩,
    ⟨55000000000000000, 6000000000000000, 2000000000000000, 2000000000000000⟩⟩,
  /- CFM56-5B7/3 -/ ⟨[67, 70, 77, 53, 54, 45, 53, 66, 55, 47, 51], some 57000000000000000, some 1201000000000000000000, none, none, none, none,
    ⟨1020000000000000, 3160000000000000, 9390000000000000, 11420000000000000⟩,
    ⟨42200000000000000, 88500000000000000, 172300000000000000, 215700000000000000⟩,
    ⟨320700000000000000, 32400000000000000, 1600000000000000, 2500000000000000⟩,
    ⟨19200000000000000, 500000000000000, 200000000000000, 200000000000000⟩⟩,
  /- CFM56-5B7/P -/ ⟨[67, 70, 77, 53, 54, 45, 53, 66, 55, 47, 80], some 59000000000000000, some 1201100000000000000000, none, none, none, none,
    ⟨1040000000000000, 3120000000000000, 9350000000000000, 11320000000000000⟩,
    ⟨43000000000000000, 100000000000000000, 232000000000000000, 280000000000000000⟩,
    ⟨234000000000000000, 23000000000000000, 9000000000000000, 9000000000000000⟩,
    ⟨46000000000000000, 5000000000000000, 2000000000000000, 2000000000000000⟩⟩,
  /- CFM56-5B8/3 -/ ⟨[67, 70, 77, 53, 54, 45, 53, 66, 56, 47, 51], some 60000000000000000, some 961000000000000000000, none, none, none, none,
    ⟨910000000000000, 2600000000000000, 7270000000000000, 8750000000000000⟩,
    ⟨37700000000000000, 79600000000000000, 137900000000000000, 161000000000000000⟩,
    ⟨428200000000000000, 51200000000000000, 2100000000000000, 1500000000000000⟩,
    ⟨37600000000000000, 800000000000000, 300000000000000, 300000000000000⟩⟩,
  /- CFM56-5B8/P -/ ⟨[67, 70, 77, 53, 54, 45, 53, 66, 56, 47, 80], some 59000000000000000, some 947000000000000000000, none, none, none, none,
    ⟨940000000000000, 2620000000000000, 7290000000000000, 8750000000000000⟩,
    ⟨34000000000000000, 84000000000000000, 167000000000000000, 197000000000000000⟩,
    ⟨329000000000000000, 39000000000000000, 8000000000000000, 8000000000000000⟩,
    ⟨65000000000000000, 9000000000000000, 1000000000000000, 1000000000000000⟩⟩,
  /- CFM56-5B9/2P -/ ⟨[67, 70, 77, 53, 54, 45, 53, 66, 57, 47, 50, 80], some 59000000000000000, some 1022000000000000000000, none, none, none, none,
    ⟨1050000000000000, 2960000000000000, 7990000000000000, 9610000000000000⟩,
    ⟨32000000000000000, 76000000000000000, 107000000000000000, 139000000000000000⟩,
    ⟨441000000000000000, 210000000000000000, 81000000000000000, 29000000000000000⟩,
    ⟨44000000000000000, 4000000000000000, 3000000000000000, 2000000000000000⟩⟩,
  /- CFM56-5B9/3 -/ ⟨[67, 70, 77, 53, 54, 45, 53, 66, 57, 47, 51], some 59000000000000000, some 1036000000000000000000, none, none, none, none,
    ⟨950000000000000, 2780000000000000, 7930000000000000, 9560000000000000⟩,
    ⟨39200000000000000, 82600000000000000, 147600000000000000, 175400000000000000⟩,
    ⟨388000000000000000, 44200000000000000, 1700000000000000, 1600000000000000⟩,
    ⟨30100000000000000, 700000000000000, 300000000000000, 200000000000000⟩⟩,
  /- CFM56-5B9/P -/ ⟨[67, 70, 77, 53, 54, 45, 53, 66, 57, 47, 80], some 59000000000000000, some 1022000000000000000000, none, none, none, none,
    ⟨980000000000000, 2800000000000000, 7940000000000000, 9540000000000000⟩,
    ⟨36000000000000000, 88000000000000000, 179000000000000000, 214000000000000000⟩,
    ⟨304000000000000000, 37000000000000000, 8000000000000000, 8000000000000000⟩,
    ⟨59000000000000000, 8000000000000000, 1000000000000000, 1000000000000000⟩⟩,
  /- CFM56-5C2 -/ ⟨[67, 70, 77, 53, 54, 45, 53, 67, 50], some 68000000000000000, some 1387800000000000000000, some 307590000000000000000, some 8000000000000000, some 154000000000000, some 350000000000000000000,
    ⟨1175000000000000, 3558000000000000, 10760000000000000, 13080000000000000⟩,
    ⟨41900000000000000, 100000000000000000, 258000000000000000, 326000000000000000⟩,
    ⟨340000000000000000, 17500000000000000, 8000000000000000, 9300000000000000⟩,
    ⟨56800000000000000, 820000000000000, 80000000000000, 80000000000000⟩⟩,
  /- CFM56-5C2/P -/ ⟨[67, 70, 77, 53, 54, 45, 53, 67, 50, 47, 80], some 68000000000000000, some 1376100000000000000000, none, none, none, none,
    ⟨1090000000000000, 3420000000000000, 10350000000000000, 12520000000000000⟩,
    ⟨39000000000000000, 93000000000000000, 238000000000000000, 297000000000000000⟩,
    ⟨351000000000000000, 21000000000000000, 7000000000000000, 8000000000000000⟩,
    ⟨58000000000000000, 0, 0, 0⟩⟩,
  /- CFM56-5C3 -/ ⟨[67, 70, 77, 53, 54, 45, 53, 67, 51], some 67000000000000000, some 1445700000000000000000, some 307370000000000000000, some 8000000000000000, some 154000000000000, some 350000000000000000000,
    ⟨1203000000000000, 3700000000000000, 11310000000000000, 13730000000000000⟩,
    ⟨42600000000000000, 104000000000000000, 271000000000000000, 347000000000000000⟩,
    ⟨326000000000000000, 15700000000000000, 8200000000000000, 9800000000000000⟩,
    ⟨53500000000000000, 740000000000000, 80000000000000, 80000000000000⟩⟩,
  /- CFM56-5C3/P -/ ⟨[67, 70, 77, 53, 54, 45, 53, 67, 51, 47, 80], some 67000000000000000, some 1433300000000000000000, none, none, none, none,
    ⟨1120000000000000, 3550000000000000, 10850000000000000, 13160000000000000⟩,
    ⟨40000000000000000, 96000000000000000, 251000000000000000, 316000000000000000⟩,
    ⟨334000000000000000, 19000000000000000, 7000000000000000, 8000000000000000⟩,
    ⟨54000000000000000, 0, 0, 0⟩⟩,
  /- CFM56-5C4 -/ ⟨[67, 70, 77, 53, 54, 45, 53, 67, 52], some 66000000000000000, some 1512500000000000000000, some 315820000000000000000, some 8000000000000000, some 154000000000000, some 350000000000000000000,
    ⟨1240000000000000, 3860000000000000, 11950000000000000, 14560000000000000⟩,
    ⟨42800000000000000, 106700000000000000, 290500000000000000, 376700000000000000⟩,
    ⟨309300000000000000, 14000000000000000, 8500000000000000, 10000000000000000⟩,
    ⟨50000000000000000, 650000000000000, 80000000000000, 80000000000000⟩⟩,
  /- CFM56-5C4/P -/ ⟨[67, 70, 77, 53, 54, 45, 53, 67, 52, 47, 80], some 66000000000000000, some 1499000000000000000000, none, none, none, none,
    ⟨1150000000000000, 3700000000000000, 11430000000000000, 13950000000000000⟩,
    ⟨41000000000000000, 99000000000000000, 267000000000000000, 341000000000000000⟩,
    ⟨316000000000000000, 16000000000000000, 7000000000000000, 8000000000000000⟩,
    ⟨50000000000000000, 0, 0, 0⟩⟩,
  /- CFM56-7B18 -/ ⟨[67, 70, 77, 53, 54, 45, 55, 66, 49, 56], some 55000000000000000, some 867400000000000000000, some 241090000000000000000, some 8000000000000000, none, some 350000000000000000000,
    ⟨970000000000000, 2600000000000000, 7140000000000000, 8540000000000000⟩,
    ⟨43000000000000000, 91000000000000000, 166000000000000000, 192000000000000000⟩,
    ⟨283000000000000000, 36000000000000000, 4000000000000000, 6000000000000000⟩,
    ⟨35000000000000000, 1000000000000000, 1000000000000000, 1000000000000000⟩⟩,
  /- CFM56-7B18/3 -/ ⟨[67, 70, 77, 53, 54, 45, 55, 66, 49, 56, 47, 51], some 55000000000000000, some 867000000000000000000, none, none, none, none,
    ⟨920000000000000, 2560000000000000, 7020000000000000, 8420000000000000⟩,
    ⟨36500000000000000, 77800000000000000, 130000000000000000, 148100000000000000⟩,
    ⟨466400000000000000, 55400000000000000, 2800000000000000, 1700000000000000⟩,
    ⟨45100000000000000, 800000000000000, 300000000000000, 300000000000000⟩⟩,
  /- CFM56-7B20 -/ ⟨[67, 70, 77, 53, 54, 45, 55, 66, 50, 48], some 54000000000000000, some 916300000000000000000, some 242420000000000000000, some 8000000000000000, some 179000000000000, some 350000000000000000000,
    ⟨1000000000000000, 2740000000000000, 7610000000000000, 9130000000000000⟩,
    ⟨43000000000000000, 95000000000000000, 174000000000000000, 205000000000000000⟩,
    ⟨259000000000000000, 32000000000000000, 5000000000000000, 6000000000000000⟩,
    ⟨31000000000000000, 1000000000000000, 1000000000000000, 1000000000000000⟩⟩,
  /- CFM56-7B20/2 -/ ⟨[67, 70, 77, 53, 54, 45, 55, 66, 50, 48, 47, 50], some 54000000000000000, some 916300000000000000000, none, none, none, none,
    ⟨1020000000000000, 2780000000000000, 7540000000000000, 9030000000000000⟩,
    ⟨37500000000000000, 93900000000000000, 108100000000000000, 132500000000000000⟩,
    ⟨497100000000000000, 113700000000000000, 113800000000000000, 42600000000000000⟩,
    ⟨81100000000000000, 3600000000000000, 2300000000000000, 700000000000000⟩⟩,
  /- CFM56-7B20/3 -/ ⟨[67, 70, 77, 53, 54, 45, 55, 66, 50, 48, 47, 51], some 55000000000000000, some 916000000000000000000, none, none, none, none,
    ⟨940000000000000, 2680000000000000, 7460000000000000, 8960000000000000⟩,
    ⟨37700000000000000, 79800000000000000, 135300000000000000, 156100000000000000⟩,
    ⟨433100000000000000, 50300000000000000, 2300000000000000, 1500000000000000⟩,
    ⟨38400000000000000, 800000000000000, 300000000000000, 300000000000000⟩⟩]

def engines2 : List EngineRow := [
  /- CFM56-7B20E -/ ⟨[67, 70, 77, 53, 54, 45, 55, 66, 50, 48, 69], some 55000000000000000, some 916000000000000000000, none, none, none, none,
    ⟨940000000000000, 2680000000000000, 7460000000000000, 8960000000000000⟩,
    ⟨38000000000000000, 80000000000000000, 135000000000000000, 156100000000000000⟩,
    ⟨433100000000000000, 50300000000000000, 2300000000000000, 1500000000000000⟩,
    ⟨38400000000000000, 800000000000000, 300000000000000, 300000000000000⟩⟩,
  /- CFM56-7B22 -/ ⟨[67, 70, 77, 53, 54, 45, 55, 66, 50, 50], some 53000000000000000, some 1009700000000000000000, some 242420000000000000000, some 8000000000000000, none, some 350000000000000000000,
    ⟨1050000000000000, 2980000000000000, 8440000000000000, 10210000000000000⟩,
    ⟨45000000000000000, 100000000000000000, 190000000000000000, 231000000000000000⟩,
    ⟨228000000000000000, 25000000000000000, 6000000000000000, 5000000000000000⟩,
    ⟨25000000000000000, 1000000000000000, 1000000000000000, 1000000000000000⟩⟩,
  /- CFM56-7B22/2 -/ ⟨[67, 70, 77, 53, 54, 45, 55, 66, 50, 50, 47, 50], some 53000000000000000, some 1009700000000000000000, none, none, none, none,
    ⟨1050000000000000, 3030000000000000, 8370000000000000, 10080000000000000⟩,
    ⟨39400000000000000, 63700000000000000, 121600000000000000, 150800000000000000⟩,
    ⟨453500000000000000, 308700000000000000, 65800000000000000, 21800000000000000⟩,
    ⟨72600000000000000, 60600000000000000, 1000000000000000, 600000000000000⟩⟩,
  /- CFM56-7B22/3 -/ ⟨[67, 70, 77, 53, 54, 45, 55, 66, 50, 50, 47, 51], some 53000000000000000, some 1010000000000000000000, none, none, none, none,
    ⟨990000000000000, 2910000000000000, 8320000000000000, 10040000000000000⟩,
    ⟨39500000000000000, 83500000000000000, 146700000000000000, 174000000000000000⟩,
    ⟨379000000000000000, 41800000000000000, 1700000000000000, 1600000000000000⟩,
    ⟨28300000000000000, 700000000000000, 300000000000000, 200000000000000⟩⟩,
  /- CFM56-7B22E -/ ⟨[67, 70, 77, 53, 54, 45, 55, 66, 50, 50, 69], some 53000000000000000, some 1010000000000000000000, none, none, none, none,
    ⟨990000000000000, 2910000000000000, 8320000000000000, 10040000000000000⟩,
    ⟨39500000000000000, 83500000000000000, 146700000000000000, 174000000000000000⟩,
    ⟨379000000000000000, 41800000000000000, 1700000000000000, 1600000000000000⟩,
    ⟨28300000000000000, 700000000000000, 300000000000000, 200000000000000⟩⟩,
  /- CFM56-7B22E/B1 -/ ⟨[67, 70, 77, 53, 54, 45, 55, 66, 50, 50, 69, 47, 66, 49], some 53000000000000000, some 1010000000000000000000, none, none, none, none,
    ⟨990000000000000, 2910000000000000, 8320000000000000, 10040000000000000⟩,
    ⟨39500000000000000, 83500000000000000, 146700000000000000, 174000000000000000⟩,
    ⟨379000000000000000, 41800000000000000, 1700000000000000, 1600000000000000⟩,
    ⟨28300000000000000, 700000000000000, 300000000000000, 200000000000000⟩⟩,
  /- CFM56-7B24 -/ ⟨[67, 70, 77, 53, 54, 45, 55, 66, 50, 52], some 52000000000000000, some 1076500000000000000000, some 243760000000000000000, some 8000000000000000, some 178000000000000, some 350000000000000000000,
    ⟨1090000000000000, 3160000000000000, 9100000000000000, 11030000000000000⟩,
    ⟨44000000000000000, 101000000000000000, 205000000000000000, 253000000000000000⟩,
    ⟨220000000000000000, 22000000000000000, 6000000000000000, 4000000000000000⟩,
    ⟨24000000000000000, 1000000000000000, 1000000000000000, 1000000000000000⟩⟩,
  /- CFM56-7B24/2 -/ ⟨[67, 70, 77, 53, 54, 45, 55, 66, 50, 52, 47, 50], some 52000000000000000, some 1076500000000000000000, none, none, none, none,
    ⟨1090000000000000, 3130000000000000, 9020000000000000, 10890000000000000⟩,
    ⟨40800000000000000, 67200000000000000, 132300000000000000, 166300000000000000⟩,
    ⟨427200000000000000, 303200000000000000, 43000000000000000, 13800000000000000⟩,
    ⟨65500000000000000, 60100000000000000, 700000000000000, 500000000000000⟩⟩,
  /- CFM56-7B24/3 -/ ⟨[67, 70, 77, 53, 54, 45, 55, 66, 50, 52, 47, 51], some 53000000000000000, some 1076000000000000000000, none, none, none, none,
    ⟨1030000000000000, 3080000000000000, 8950000000000000, 10860000000000000⟩,
    ⟨40900000000000000, 86000000000000000, 156000000000000000, 189300000000000000⟩,
    ⟨347100000000000000, 36800000000000000, 1500000000000000, 1800000000000000⟩,
    ⟨23000000000000000, 600000000000000, 300000000000000, 200000000000000⟩⟩,
  /- CFM56-7B24E -/ ⟨[67, 70, 77, 53, 54, 45, 55, 66, 50, 52, 69], some 53000000000000000, some 1076000000000000000000, none, none, none, none,
    ⟨1030000000000000, 3080000000000000, 8950000000000000, 10860000000000000⟩,
    ⟨40900000000000000, 86000000000000000, 156000000000000000, 189300000000000000⟩,
    ⟨347100000000000000, 36800000000000000, 1500000000000000, 1800000000000000⟩,
    ⟨23000000000000000, 600000000000000, 300000000000000, 200000000000000⟩⟩,
  /- CFM56-7B24E/B1 -/ ⟨[67, 70, 77, 53, 54, 45, 55, 66, 50, 52, 69, 47, 66, 49], some 53000000000000000, some 1076000000000000000000, none, none, none, none,
    ⟨1030000000000000, 3080000000000000, 8950000000000000, 10860000000000000⟩,
    ⟨40900000000000000, 86000000000000000, 156000000000000000, 189300000000000000⟩,
    ⟨347100000000000000, 36800000000000000, 1500000000000000, 1800000000000000⟩,
    ⟨23000000000000000, 600000000000000, 300000000000000, 200000000000000⟩⟩,
  /- CFM56-7B26 -/ ⟨[67, 70, 77, 53, 54, 45, 55, 66, 50, 54], some 51000000000000000, some 1169900000000000000000, some 243760000000000000000, some 8000000000000000, none, some 350000000000000000000,
    ⟨1130000000000000, 3380000000000000, 9990000000000000, 12210000000000000⟩,
    ⟨47000000000000000, 108000000000000000, 225000000000000000, 288000000000000000⟩,
    ⟨188000000000000000, 16000000000000000, 6000000000000000, 2000000000000000⟩,
    ⟨19000000000000000, 1000000000000000, 1000000000000000, 1000000000000000⟩⟩,
  /- CFM56-7B26/2 -/ ⟨[67, 70, 77, 53, 54, 45, 55, 66, 50, 54, 47, 50], some 51000000000000000, some 1169900000000000000000, none, none, none, none,
    ⟨1130000000000000, 3340000000000000, 9890000000000000, 12030000000000000⟩,
    ⟨42700000000000000, 72600000000000000, 147700000000000000, 192000000000000000⟩,
    ⟨399300000000000000, 260700000000000000, 25100000000000000, 7700000000000000⟩,
    ⟨58800000000000000, 47300000000000000, 600000000000000, 300000000000000⟩⟩,
  /- CFM56-7B26/3 -/ ⟨[67, 70, 77, 53, 54, 45, 55, 66, 50, 54, 47, 51], some 51000000000000000, some 1170000000000000000000, none, none, none, none,
    ⟨1080000000000000, 3310000000000000, 9860000000000000, 12130000000000000⟩,
    ⟨42700000000000000, 89300000000000000, 170800000000000000, 217900000000000000⟩,
    ⟨309400000000000000, 30700000000000000, 1600000000000000, 2500000000000000⟩,
    ⟨17500000000000000, 500000000000000, 200000000000000, 200000000000000⟩⟩,
  /- CFM56-7B26E -/ ⟨[67, 70, 77, 53, 54, 45, 55, 66, 50, 54, 69], some 51000000000000000, some 1170000000000000000000, none, none, none, none,
    ⟨1080000000000000, 3310000000000000, 9860000000000000, 12130000000000000⟩,
    ⟨42700000000000000, 89300000000000000, 170800000000000000, 217900000000000000⟩,
    ⟨309400000000000000, 30700000000000000, 1600000000000000, 2000000000000000⟩,
    ⟨17500000000000000, 500000000000000, 200000000000000, 200000000000000⟩⟩,
  /- CFM56-7B26E/B1 -/ ⟨[67, 70, 77, 53, 54, 45, 55, 66, 50, 54, 69, 47, 66, 49], some 51000000000000000, some 1170000000000000000000, none, none, none, none,
    ⟨1080000000000000, 3310000000000000, 9860000000000000, 12130000000000000⟩,
    ⟨42700000000000000, 89300000000000000, 170800000000000000, 217900000000000000⟩,
    ⟨309400000000000000, 30700000000000000, 1600000000000000, 2000000000000000⟩,
    ⟨17500000000000000, 500000000000000, 200000000000000, 200000000000000⟩⟩,
  /- CFM56-7B26E/B2 -/ ⟨[67, 70, 77, 53, 54, 45, 55, 66, 50, 54, 69, 47, 66, 50], some 51000000000000000, some 1170000000000000000000, none, none, none, none,
    ⟨1080000000000000, 3310000000000000, 9860000000000000, 12130000000000000⟩,
    ⟨42700000000000000, 89300000000000000, 170800000000000000, 217900000000000000⟩,
    ⟨309400000000000000, 30700000000000000, 1600000000000000, 2000000000000000⟩,
    ⟨17500000000000000, 500000000000000, 200000000000000, 200000000000000⟩⟩,
  /- CFM56-7B26E/B2F -/ ⟨[67, 70, 77, 53, 54, 45, 55, 66, 50, 54, 69, 47, 66, 50, 70], some 51000000000000000, some 1170000000000000000000, none, none, none, none,
    ⟨1080000000000000, 3310000000000000, 9860000000000000, 12130000000000000⟩,
    ⟨42700000000000000, 89300000000000000, 170800000000000000, 217900000000000000⟩,
    ⟨309400000000000000, 30700000000000000, 1600000000000000, 2000000000000000⟩,
    ⟨17500000000000000, 500000000000000, 200000000000000, 200000000000000⟩⟩,
  /- CFM56-7B26E/F -/ ⟨[67, 70, 77, 53, 54, 45, 55, 66, 50, 54, 69, 47, 70], some 51000000000000000, some 1170000000000000000000, none, none, none, none,
    ⟨1080000000000000, 3310000000000000, 9860000000000000, 12130000000000000⟩,
    ⟨42700000000000000, 89300000000000000, 170800000000000000, 217900000000000000⟩,
    ⟨309400000000000000, 30700000000000000, 1600000000000000, 2000000000000000⟩,
    ⟨17500000000000000, 500000000000000, 200000000000000, 200000000000000⟩⟩,
  /- CFM56-7B27 -/ ⟨[67, 70, 77, 53, 54, 45, 55, 66, 50, 55], some 50000000000000000, some 1214400000000000000000, none, none, none, none,
    ⟨1160000000000000, 3490000000000000, 10430000000000000, 12840000000000000⟩,
    ⟨48000000000000000, 110000000000000000, 237000000000000000, 309000000000000000⟩,
    ⟨179000000000000000, 14000000000000000, 5000000000000000, 2000000000000000⟩,
    ⟨17000000000000000, 1000000000000000, 1000000000000000, 1000000000000000⟩⟩,
  /- CFM56-7B27/2 -/ ⟨[67, 70, 77, 53, 54, 45, 55, 66, 50, 55, 47, 50], some 50000000000000000, some 1214400000000000000000, none, none, none, none,
    ⟨1150000000000000, 3510000000000000, 10330000000000000, 12650000000000000⟩,
    ⟨43600000000000000, 75300000000000000, 155900000000000000, 208100000000000000⟩,
    ⟨387300000000000000, 242800000000000000, 19700000000000000, 5400000000000000⟩,
    ⟨55600000000000000, 42100000000000000, 600000000000000, 500000000000000⟩⟩,
  /- CFM56-7B27/3 -/ ⟨[67, 70, 77, 53, 54, 45, 55, 66, 50, 55, 47, 51], some 51000000000000000, some 1214000000000000000000, none, none, none, none,
    ⟨1100000000000000, 3430000000000000, 10310000000000000, 12930000000000000⟩,
    ⟨43600000000000000, 90900000000000000, 178900000000000000, 239400000000000000⟩,
    ⟨293900000000000000, 28200000000000000, 1700000000000000, 3100000000000000⟩,
    ⟨15400000000000000, 500000000000000, 200000000000000, 300000000000000⟩⟩,
  /- CFM56-7B27AE -/ ⟨[67, 70, 77, 53, 54, 45, 55, 66, 50, 55, 65, 69], some 51000000000000000, some 1214000000000000000000, none, none, none, none,
    ⟨1100000000000000, 3430000000000000, 10310000000000000, 12930000000000000⟩,
    ⟨43600000000000000, 90900000000000000, 178900000000000000, 239400000000000000⟩,
    ⟨293900000000000000, 28200000000000000, 1700000000000000, 3100000000000000⟩,
    ⟨15400000000000000, 500000000000000, 200000000000000, 300000000000000⟩⟩,
  /- CFM56-7B27E -/ ⟨[67, 70, 77, 53, 54, 45, 55, 66, 50, 55, 69], some 51000000000000000, some 1214000000000000000000, none, none, none, none,
    ⟨1100000000000000, 3430000000000000, 10310000000000000, 12930000000000000⟩,
    ⟨43600000000000000, 90900000000000000, 178900000000000000, 239400000000000000⟩,
    ⟨293900000000000000, 28200000000000000, 1700000000000000, 3100000000000000⟩,
    ⟨15400000000000000, 500000000000000, 200000000000000, 300000000000000⟩⟩,
  /- CFM56-7B27E/B1 -/ ⟨[67, 70, 77, 53, 54, 45, 55, 66, 50, 55, 69, 47, 66, 49], some 51000000000000000, some 1214000000000000000000, none, none, none, none,
    ⟨1100000000000000, 3430000000000000, 10310000000000000, 12930000000000000⟩,
    ⟨43600000000000000, 90900000000000000, 178900000000000000, 239400000000000000⟩,
    ⟨293900000000000000, 28200000000000000, 1700000000000000, 3100000000000000⟩,
    ⟨15400000000000000, 500000000000000, 200000000000000, 300000000000000⟩⟩,
  /- CFM56-7B27E/B1F -/ ⟨[67, 70, 77, 53, 54, 45, 55, 66, 50, 55, 69, 47, 66, 49, 70], some 51000000000000000, some 1214000000000000000000, none, none, none, none,
    ⟨1100000000000000, 3430000000000000, 10310000000000000, 12930000000000000⟩,
    ⟨43600000000000000, 90900000000000000, 178900000000000000, 239400000000000000⟩,
    ⟨293900000000000000, 28200000000000000, 1700000000000000, 3100000000000000⟩,
    ⟨15400000000000000, 500000000000000, 200000000000000, 300000000000000⟩⟩,
  /- CFM56-7B27E/B3 -/ ⟨[67, 70, 77, 53, 54, 45, 55, 66, 50, 55, 69, 47, 66, 51], some 51000000000000000, some 1214000000000000000000, none, none, none, none,
    ⟨1100000000000000, 3430000000000000, 10310000000000000, 12930000000000000⟩,
    ⟨43600000000000000, 90900000000000000, 178900000000000000, 239400000000000000⟩,
    ⟨293900000000000000, 28200000000000000, 1700000000000000, 3100000000000000⟩,
    ⟨15400000000000000, 500000000000000, 200000000000000, 300000000000000⟩⟩,
  /- CFM56-7B27E/F -/ ⟨[67, 70, 77, 53, 54, 45, 55, 66, 50, 55, 69, 47, 70], some 51000000000000000, some 1214000000000000000000, none, none, none, none,
    ⟨1100000000000000, 3430000000000000, 10310000000000000, 12930000000000000⟩,
    ⟨43600000000000000, 90900000000000000, 178900000000000000, 239400000000000000⟩,
    ⟨293900000000000000, 28200000000000000, 1700000000000000, 3100000000000000⟩,
    ⟨15400000000000000, 500000000000000, 200000000000000, 300000000000000⟩⟩,
  /- LEAP-1A24/24E1/23 -/ ⟨[76, 69, 65, 80, 45, 49, 65, 50, 52, 47, 50, 52, 69, 49, 47, 50, 51], some 113000000000000000, some 1068000000000000000000, none, none, none, none,
    ⟨870000000000000, 2190000000000000, 6160000000000000, 7450000000000000⟩,
    ⟨44500000000000000, 80200000000000000, 94100000000000000, 175900000000000000⟩,
    ⟨237900000000000000, 35300000000000000, 4100000000000000, 2400000000000000⟩,
    ⟨3700000000000000, 500000000000000, 200000000000000, 200000000000000⟩⟩,
  /- LEAP-1A26/26E1 -/ ⟨[76, 69, 65, 80, 45, 49, 65, 50, 54, 47, 50, 54, 69, 49], some 111000000000000000, some 1206000000000000000000, none, none, none, none,
    ⟨910000000000000, 2440000000000000, 7100000000000000, 8610000000000000⟩,
    ⟨46100000000000000, 87500000000000000, 133800000000000000, 308000000000000000⟩,
    ⟨216300000000000000, 26500000000000000, 2600000000000000, 2400000000000000⟩,
    ⟨2900000000000000, 400000000000000, 200000000000000, 200000000000000⟩⟩,
  /- LEAP-1A35A/33/33B2/32/30 -/ ⟨[76, 69, 65, 80, 45, 49, 65, 51, 53, 65, 47, 51, 51, 47, 51, 51, 66, 50, 47, 51, 50, 47, 51, 48], some 105000000000000000, some 1431000000000000000000, none, none, none, none,
    ⟨980000000000000, 2840000000000000, 8690000000000000, 10620000000000000⟩,
    ⟨48500000000000000, 99500000000000000, 323500000000000000, 597400000000000000⟩,
    ⟨186800000000000000, 17900000000000000, 2400000000000000, 3000000000000000⟩,
    ⟨2100000000000000, 400000000000000, 200000000000000, 500000000000000⟩⟩,
  /- LEAP-1A26CJ -/ ⟨[76, 69, 65, 80, 45, 49, 65, 50, 54, 67, 74], some 111000000000000000, some 1206000000000000000000, none, none, none, none,
    ⟨910000000000000, 2440000000000000, 7100000000000000, 8610000000000000⟩,
    ⟨46100000000000000, 87500000000000000, 133800000000000000, 308000000000000000⟩,
    ⟨216300000000000000, 26500000000000000, 2600000000000000, 2400000000000000⟩,
    ⟨2900000000000000, 400000000000000, 200000000000000, 200000000000000⟩⟩,
  /- LEAP-1A29 -/ ⟨[76, 69, 65, 80, 45, 49, 65, 50, 57], some 107000000000000000, some 1303000000000000000000, none, none, none, none,
    ⟨940000000000000, 2610000000000000, 7770000000000000, 9460000000000000⟩,
    ⟨47200000000000000, 92700000000000000, 210300000000000000, 494800000000000000⟩,
    ⟨203000000000000000, 22100000000000000, 2300000000000000, 2700000000000000⟩,
    ⟨2500000000000000, 400000000000000, 200000000000000, 400000000000000⟩⟩,
  /- LEAP-1A29CJ -/ ⟨[76, 69, 65, 80, 45, 49, 65, 50, 57, 67, 74], some 107000000000000000, some 1303000000000000000000, none, none, none, none,
    ⟨940000000000000, 2610000000000000, 7770000000000000, 9460000000000000⟩,
    ⟨47200000000000000, 92700000000000000, 210300000000000000, 494800000000000000⟩,
    ⟨203000000000000000, 22100000000000000, 2300000000000000, 2700000000000000⟩,
    ⟨2500000000000000, 400000000000000, 200000000000000, 400000000000000⟩⟩,
  /- LEAP-1B21 -/ ⟨[76, 69, 65, 80, 45, 49, 66, 50, 49], some 85000000000000000, some 1113000000000000000000, none, none, none, none,
    ⟨890000000000000, 2450000000000000, 7220000000000000, 8770000000000000⟩,
    ⟨47400000000000000, 102600000000000000, 175300000000000000, 303900000000000000⟩,
    ⟨161900000000000000, 14900000000000000, 1600000000000000, 1500000000000000⟩,
    ⟨7100000000000000, 500000000000000, 400000000000000, 400000000000000⟩⟩,
  /- LEAP-1B23 -/ ⟨[76, 69, 65, 80, 45, 49, 66, 50, 51], some 85000000000000000, some 1152000000000000000000, none, none, none, none,
    ⟨910000000000000, 2530000000000000, 7520000000000000, 9160000000000000⟩,
    ⟨46300000000000000, 107000000000000000, 181100000000000000, 381900000000000000⟩,
    ⟨156100000000000000, 13600000000000000, 1400000000000000, 1600000000000000⟩,
    ⟨6400000000000000, 500000000000000, 400000000000000, 400000000000000⟩⟩,
  /- LEAP-1B25 -/ ⟨[76, 69, 65, 80, 45, 49, 66, 50, 53], some 84000000000000000, some 1192000000000000000000, none, none, none, none,
    ⟨910000000000000, 2600000000000000, 7840000000000000, 9600000000000000⟩,
    ⟨45700000000000000, 111000000000000000, 203500000000000000, 489000000000000000⟩,
    ⟨152700000000000000, 12500000000000000, 1400000000000000, 1700000000000000⟩,
    ⟨5900000000000000, 500000000000000, 400000000000000, 400000000000000⟩⟩,
  /- LEAP-1B28BBJ2 -/ ⟨[76, 69, 65, 80, 45, 49, 66, 50, 56, 66, 66, 74, 50], some 83000000000000000, some 1247000000000000000000, none, none, none, none,
    ⟨950000000000000, 2730000000000000, 8260000000000000, 10140000000000000⟩,
    ⟨45900000000000000, 115900000000000000, 232600000000000000, 552600000000000000⟩,
    ⟨144000000000000000, 11100000000000000, 1400000000000000, 1700000000000000⟩,
    ⟨5100000000000000, 500000000000000, 400000000000000, 500000000000000⟩⟩,
  /- LEAP-1B27 -/ ⟨[76, 69, 65, 80, 45, 49, 66, 50, 55], some 83000000000000000, some 1247000000000000000000, none, none, none, none,
    ⟨950000000000000, 2730000000000000, 8260000000000000, 10140000000000000⟩,
    ⟨45900000000000000, 115900000000000000, 232600000000000000, 552600000000000000⟩,
    ⟨144000000000000000, 11100000000000000, 1400000000000000, 1700000000000000⟩,
    ⟨5100000000000000, 500000000000000, 400000000000000, 500000000000000⟩⟩,
  /- LEAP-1B28B2C -/ ⟨[76, 69, 65, 80, 45, 49, 66, 50, 56, 66, 50, 67], some 83000000000000000, some 1247000000000000000000, none, none, none, none,
    ⟨950000000000000, 2730000000000000, 8260000000000000, 10140000000000000⟩,
    ⟨45900000000000000, 115900000000000000, 232600000000000000, 552600000000000000⟩,
    ⟨144000000000000000, 11100000000000000, 1400000000000000, 1700000000000000⟩,
    ⟨5100000000000000, 500000000000000, 400000000000000, 500000000000000⟩⟩]

def engines3 : List EngineRow := [
  /- LEAP-1B28BBJ1 -/ ⟨[76, 69, 65, 80, 45, 49, 66, 50, 56, 66, 66, 74, 49], some 83000000000000000, some 1304000000000000000000, none, none, none, none,
    ⟨970000000000000, 2850000000000000, 8730000000000000, 10750000000000000⟩,
    ⟨46800000000000000, 119200000000000000, 295900000000000000, 643600000000000000⟩,
    ⟨137700000000000000, 9900000000000000, 1500000000000000, 1800000000000000⟩,
    ⟨4600000000000000, 500000000000000, 400000000000000, 500000000000000⟩⟩,
  /- LEAP-1B28/28B2/28B1/28B3 -/ ⟨[76, 69, 65, 80, 45, 49, 66, 50, 56, 47, 50, 56, 66, 50, 47, 50, 56, 66, 49, 47, 50, 56, 66, 51], some 83000000000000000, some 1304000000000000000000, none, none, none, none,
    ⟨970000000000000, 2850000000000000, 8730000000000000, 10750000000000000⟩,
    ⟨46800000000000000, 119200000000000000, 295900000000000000, 643600000000000000⟩,
    ⟨137700000000000000, 9900000000000000, 1500000000000000, 1800000000000000⟩,
    ⟨4600000000000000, 500000000000000, 400000000000000, 500000000000000⟩⟩,
  /- GP7270 -/ ⟨[71, 80, 55, 50, 55, 48], some 87100000000000000, some 3323900000000000000000, some 561940000000000000000, some 8500000000000000, none, some 350000000000000000000,
    ⟨2340000000000000, 7110000000000000, 21690000000000000, 26370000000000000⟩,
    ⟨52400000000000000, 129000000000000000, 313700000000000000, 417300000000000000⟩,
    ⟨335800000000000000, 12700000000000000, 900000000000000, 1100000000000000⟩,
    ⟨40400000000000000, 700000000000000, 300000000000000, 300000000000000⟩⟩,
  /- CF34-10A16 -/ ⟨[67, 70, 51, 52, 45, 49, 48, 65, 49, 54], some 57000000000000000, some 769000000000000000000, none, none, none, none,
    ⟨830000000000000, 2190000000000000, 6320000000000000, 7650000000000000⟩,
    ⟨34500000000000000, 79700000000000000, 150400000000000000, 178700000000000000⟩,
    ⟨520500000000000000, 39800000000000000, 3400000000000000, 4900000000000000⟩,
    ⟨69600000000000000, 1400000000000000, 800000000000000, 600000000000000⟩⟩,
  /- CF34-10A18 -/ ⟨[67, 70, 51, 52, 45, 49, 48, 65, 49, 56], some 54000000000000000, some 821000000000000000000, none, none, none, none,
    ⟨860000000000000, 2320000000000000, 6840000000000000, 8260000000000000⟩,
    ⟨35800000000000000, 82600000000000000, 167200000000000000, 194700000000000000⟩,
    ⟨472900000000000000, 34300000000000000, 3600000000000000, 6600000000000000⟩,
    ⟨56700000000000000, 1300000000000000, 800000000000000, 500000000000000⟩⟩,
  /- CF34-10E2A1 -/ ⟨[67, 70, 51, 52, 45, 49, 48, 69, 50, 65, 49], some 50900000000000000, some 754400000000000000000, none, none, none, none,
    ⟨840000000000000, 2220000000000000, 6400000000000000, 7690000000000000⟩,
    ⟨35600000000000000, 76400000000000000, 152600000000000000, 179800000000000000⟩,
    ⟨508100000000000000, 44600000000000000, 3800000000000000, 4100000000000000⟩,
    ⟨54400000000000000, 1000000000000000, 500000000000000, 400000000000000⟩⟩,
  /- CF34-10E5 -/ ⟨[67, 70, 51, 52, 45, 49, 48, 69, 53], some 50900000000000000, some 774000000000000000000, none, none, none, none,
    ⟨850000000000000, 2270000000000000, 6590000000000000, 7920000000000000⟩,
    ⟨35900000000000000, 77600000000000000, 156200000000000000, 185100000000000000⟩,
    ⟨494000000000000000, 41800000000000000, 3800000000000000, 4300000000000000⟩,
    ⟨51500000000000000, 900000000000000, 600000000000000, 400000000000000⟩⟩,
  /- CF34-10E5A1 -/ ⟨[67, 70, 51, 52, 45, 49, 48, 69, 53, 65, 49], some 50900000000000000, some 837000000000000000000, none, none, none, none,
    ⟨880000000000000, 2440000000000000, 7200000000000000, 8710000000000000⟩,
    ⟨37200000000000000, 81400000000000000, 168800000000000000, 204500000000000000⟩,
    ⟨449300000000000000, 33700000000000000, 3900000000000000, 5200000000000000⟩,
    ⟨43000000000000000, 600000000000000, 500000000000000, 100000000000000⟩⟩,
  /- CF34-10E6 -/ ⟨[67, 70, 51, 52, 45, 49, 48, 69, 54], some 50900000000000000, some 774000000000000000000, none, none, none, none,
    ⟨850000000000000, 2270000000000000, 6590000000000000, 7920000000000000⟩,
    ⟨35900000000000000, 77600000000000000, 156200000000000000, 185100000000000000⟩,
    ⟨494000000000000000, 41800000000000000, 3800000000000000, 4300000000000000⟩,
    ⟨51500000000000000, 900000000000000, 600000000000000, 400000000000000⟩⟩,
  /- CF34-10E6A1 -/ ⟨[67, 70, 51, 52, 45, 49, 48, 69, 54, 65, 49], some 50900000000000000, some 837000000000000000000, none, none, none, none,
    ⟨880000000000000, 2440000000000000, 7200000000000000, 8710000000000000⟩,
    ⟨37200000000000000, 81400000000000000, 168800000000000000, 204500000000000000⟩,
    ⟨449300000000000000, 33700000000000000, 3900000000000000, 5200000000000000⟩,
    ⟨43000000000000000, 600000000000000, 500000000000000, 100000000000000⟩⟩,
  /- CF34-10E7 -/ ⟨[67, 70, 51, 52, 45, 49, 48, 69, 55], some 50900000000000000, some 837000000000000000000, none, none, none, none,
    ⟨880000000000000, 2440000000000000, 7200000000000000, 8710000000000000⟩,
    ⟨37200000000000000, 81400000000000000, 168800000000000000, 204500000000000000⟩,
    ⟨449300000000000000, 33700000000000000, 3900000000000000, 5200000000000000⟩,
    ⟨43000000000000000, 600000000000000, 500000000000000, 100000000000000⟩⟩,
  /- CF34-10E7-B -/ ⟨[67, 70, 51, 52, 45, 49, 48, 69, 55, 45, 66], some 50900000000000000, some 837000000000000000000, none, none, none, none,
    ⟨880000000000000, 2390000000000000, 7170000000000000, 8700000000000000⟩,
    ⟨36900000000000000, 79400000000000000, 162200000000000000, 196800000000000000⟩,
    ⟨417300000000000000, 40200000000000000, 7700000000000000, 8900000000000000⟩,
    ⟨40200000000000000, 1000000000000000, 900000000000000, 500000000000000⟩⟩,
  /- CF34-3A -/ ⟨[67, 70, 51, 52, 45, 51, 65], some 62500000000000000, some 410100000000000000000, none, none, none, none,
    ⟨496000000000000, 1190000000000000, 3343000000000000, 4070000000000000⟩,
    ⟨38200000000000000, 68600000000000000, 101400000000000000, 116100000000000000⟩,
    ⟨426000000000000000, 19000000000000000, 0, 0⟩,
    ⟨39500000000000000, 1300000000000000, 600000000000000, 600000000000000⟩⟩,
  /- CF34-3A1 -/ ⟨[67, 70, 51, 52, 45, 51, 65, 49], some 62500000000000000, some 410100000000000000000, none, none, none, none,
    ⟨496000000000000, 1190000000000000, 3343000000000000, 4070000000000000⟩,
    ⟨38200000000000000, 68600000000000000, 101400000000000000, 116100000000000000⟩,
    ⟨426000000000000000, 19000000000000000, 0, 0⟩,
    ⟨39500000000000000, 1300000000000000, 600000000000000, 600000000000000⟩⟩,
  /- CF34-3B -/ ⟨[67, 70, 51, 52, 45, 51, 66], some 62500000000000000, some 410100000000000000000, none, none, none, none,
    ⟨489000000000000, 1160000000000000, 3288000000000000, 3991000000000000⟩,
    ⟨37200000000000000, 66300000000000000, 96800000000000000, 112800000000000000⟩,
    ⟨475900000000000000, 18800000000000000, 0, 0⟩,
    ⟨46900000000000000, 1300000000000000, 500000000000000, 600000000000000⟩⟩,
  /- CF34-8C1 -/ ⟨[67, 70, 51, 52, 45, 56, 67, 49], some 51300000000000000, some 563600000000000000000, none, none, none, none,
    ⟨703000000000000, 1702000000000000, 4790000000000000, 6080000000000000⟩,
    ⟨40300000000000000, 98500000000000000, 120000000000000000, 138200000000000000⟩,
    ⟨197300000000000000, 46700000000000000, 5700000000000000, 5900000000000000⟩,
    ⟨1300000000000000, 700000000000000, 300000000000000, 200000000000000⟩⟩,
  /- CF34-8C5 -/ ⟨[67, 70, 51, 52, 45, 56, 67, 53], some 51300000000000000, some 594200000000000000000, none, none, none, none,
    ⟨640000000000000, 1790000000000000, 5300000000000000, 6480000000000000⟩,
    ⟨46000000000000000, 107500000000000000, 126000000000000000, 146900000000000000⟩,
    ⟨182500000000000000, 42400000000000000, 5700000000000000, 6400000000000000⟩,
    ⟨1300000000000000, 600000000000000, 200000000000000, 200000000000000⟩⟩,
  /- CF34-8C5A1 -/ ⟨[67, 70, 51, 52, 45, 56, 67, 53, 65, 49], some 51300000000000000, some 606200000000000000000, none, none, none, none,
    ⟨650000000000000, 1830000000000000, 5430000000000000, 6650000000000000⟩,
    ⟨46500000000000000, 108700000000000000, 128200000000000000, 150900000000000000⟩,
    ⟨178500000000000000, 41700000000000000, 5700000000000000, 6600000000000000⟩,
    ⟨1300000000000000, 600000000000000, 200000000000000, 200000000000000⟩⟩,
  /- CF34-8C5A2 -/ ⟨[67, 70, 51, 52, 45, 56, 67, 53, 65, 50], some 51300000000000000, some 624900000000000000000, none, none, none, none,
    ⟨660000000000000, 1880000000000000, 5630000000000000, 6910000000000000⟩,
    ⟨47000000000000000, 110600000000000000, 131500000000000000, 158100000000000000⟩,
    ⟨173000000000000000, 40500000000000000, 5700000000000000, 7100000000000000⟩,
    ⟨1300000000000000, 600000000000000, 200000000000000, 200000000000000⟩⟩,
  /- CF34-8C5A3 -/ ⟨[67, 70, 51, 52, 45, 56, 67, 53, 65, 51], some 51300000000000000, some 645300000000000000000, none, none, none, none,
    ⟨670000000000000, 1930000000000000, 5860000000000000, 7210000000000000⟩,
    ⟨47600000000000000, 110900000000000000, 135200000000000000, 167100000000000000⟩,
    ⟨167100000000000000, 39200000000000000, 5700000000000000, 7700000000000000⟩,
    ⟨1200000000000000, 600000000000000, 200000000000000, 200000000000000⟩⟩,
  /- CF34-8C5B1 -/ ⟨[67, 70, 51, 52, 45, 56, 67, 53, 66, 49], some 51300000000000000, some 563500000000000000000, none, none, none, none,
    ⟨630000000000000, 1710000000000000, 4970000000000000, 6060000000000000⟩,
    ⟨45000000000000000, 104200000000000000, 120300000000000000, 138900000000000000⟩,
    ⟨195200000000000000, 44400000000000000, 5800000000000000, 6000000000000000⟩,
    ⟨1600000000000000, 700000000000000, 300000000000000, 200000000000000⟩⟩,
  /- CF34-8E2 -/ ⟨[67, 70, 51, 52, 45, 56, 69, 50], some 51300000000000000, some 551900000000000000000, none, none, none, none,
    ⟨620000000000000, 1680000000000000, 4850000000000000, 5910000000000000⟩,
    ⟨44500000000000000, 102900000000000000, 118200000000000000, 136000000000000000⟩,
    ⟨200100000000000000, 45200000000000000, 5800000000000000, 5900000000000000⟩,
    ⟨1600000000000000, 700000000000000, 300000000000000, 200000000000000⟩⟩,
  /- CF34-8E2A1 -/ ⟨[67, 70, 51, 52, 45, 56, 69, 50, 65, 49], some 51300000000000000, some 591500000000000000000, none, none, none, none,
    ⟨640000000000000, 1790000000000000, 5270000000000000, 6440000000000000⟩,
    ⟨45900000000000000, 107200000000000000, 125500000000000000, 146100000000000000⟩,
    ⟨183600000000000000, 42600000000000000, 5700000000000000, 6400000000000000⟩,
    ⟨1400000000000000, 600000000000000, 200000000000000, 200000000000000⟩⟩,
  /- CF34-8E5 -/ ⟨[67, 70, 51, 52, 45, 56, 69, 53], some 51300000000000000, some 596800000000000000000, none, none, none, none,
    ⟨640000000000000, 1800000000000000, 5330000000000000, 6520000000000000⟩,
    ⟨46100000000000000, 107700000000000000, 126500000000000000, 147700000000000000⟩,
    ⟨181600000000000000, 42300000000000000, 5700000000000000, 6400000000000000⟩,
    ⟨1300000000000000, 600000000000000, 200000000000000, 200000000000000⟩⟩,
  /- CF34-8E5A1 -/ ⟨[67, 70, 51, 52, 45, 56, 69, 53, 65, 49], some 51300000000000000, some 624900000000000000000, none, none, none, none,
    ⟨660000000000000, 1880000000000000, 5630000000000000, 6910000000000000⟩,
    ⟨47000000000000000, 110600000000000000, 131500000000000000, 158100000000000000⟩,
    ⟨173000000000000000, 40500000000000000, 5700000000000000, 7100000000000000⟩,
    ⟨1300000000000000, 600000000000000, 200000000000000, 200000000000000⟩⟩,
  /- CF34-8E5A2 -/ ⟨[67, 70, 51, 52, 45, 56, 69, 53, 65, 50], some 51300000000000000, some 645300000000000000000, none, none, none, none,
    ⟨670000000000000, 1930000000000000, 5860000000000000, 7210000000000000⟩,
    ⟨47600000000000000, 110900000000000000, 135200000000000000, 167100000000000000⟩,
    ⟨167100000000000000, 39200000000000000, 5700000000000000, 7700000000000000⟩,
    ⟨1200000000000000, 600000000000000, 200000000000000, 200000000000000⟩⟩,
  /- CF34-8E6 -/ ⟨[67, 70, 51, 52, 45, 56, 69, 54], some 51300000000000000, some 596800000000000000000, none, none, none, none,
    ⟨640000000000000, 1800000000000000, 5330000000000000, 6520000000000000⟩,
    ⟨46100000000000000, 107700000000000000, 126500000000000000, 147700000000000000⟩,
    ⟨181600000000000000, 42300000000000000, 5700000000000000, 6400000000000000⟩,
    ⟨1300000000000000, 600000000000000, 200000000000000, 200000000000000⟩⟩,
  /- CF34-8E6A1 -/ ⟨[67, 70, 51, 52, 45, 56, 69, 54, 65, 49], some 51300000000000000, some 624900000000000000000, none, none, none, none,
    ⟨660000000000000, 1880000000000000, 5630000000000000, 6910000000000000⟩,
    ⟨47000000000000000, 110600000000000000, 131500000000000000, 158100000000000000⟩,
    ⟨173000000000000000, 40500000000000000, 5700000000000000, 7100000000000000⟩,
    ⟨1300000000000000, 600000000000000, 200000000000000, 200000000000000⟩⟩,
  /- CF6-45A -/ ⟨[67, 70, 54, 45, 52, 53, 65], some 43000000000000000, some 2028000000000000000000, some 500420000000000000000, some 8000000000000000, some 178000000000000, some 350000000000000000000,
    ⟨1630000000000000, 5920000000000000, 16630000000000000, 20270000000000000⟩,
    ⟨34000000000000000, 93600000000000000, 216100000000000000, 254500000000000000⟩,
    ⟨240400000000000000, 50100000000000000, 5400000000000000, 4300000000000000⟩,
    ⟨27200000000000000, 3500000000000000, 1400000000000000, 900000000000000⟩⟩,
  /- CF6-45A2 -/ ⟨[67, 70, 54, 45, 52, 53, 65, 50], some 43000000000000000, some 2028000000000000000000, some 500420000000000000000, some 8000000000000000, some 178000000000000, some 350000000000000000000,
    ⟨1630000000000000, 5920000000000000, 16630000000000000, 20270000000000000⟩,
    ⟨34000000000000000, 93600000000000000, 216100000000000000, 254500000000000000⟩,
    ⟨240400000000000000, 50100000000000000, 5400000000000000, 4300000000000000⟩,
    ⟨27200000000000000, 3500000000000000, 1400000000000000, 900000000000000⟩⟩,
  /- CF6-50A -/ ⟨[67, 70, 54, 45, 53, 48, 65], some 43000000000000000, some 2153000000000000000000, none, none, none, none,
    ⟨1630000000000000, 6250000000000000, 17870000000000000, 21680000000000000⟩,
    ⟨34000000000000000, 97200000000000000, 232700000000000000, 271700000000000000⟩,
    ⟨240400000000000000, 43500000000000000, 4900000000000000, 4300000000000000⟩,
    ⟨27200000000000000, 3100000000000000, 1400000000000000, 1500000000000000⟩⟩,
  /- CF6-50C -/ ⟨[67, 70, 54, 45, 53, 48, 67], some 43000000000000000, some 2242000000000000000000, some 493750000000000000000, some 8000000000000000, some 186000000000000, some 350000000000000000000,
    ⟨1630000000000000, 6410000000000000, 18750000000000000, 22810000000000000⟩,
    ⟨34000000000000000, 100900000000000000, 243000000000000000, 280300000000000000⟩,
    ⟨240400000000000000, 39900000000000000, 4600000000000000, 4400000000000000⟩,
    ⟨27200000000000000, 2900000000000000, 1400000000000000, 1400000000000000⟩⟩,
  /- CF6-50C1 -/ ⟨[67, 70, 54, 45, 53, 48, 67, 49], some 43000000000000000, some 2304000000000000000000, some 513990000000000000000, some 8000000000000000, some 186000000000000, some 350000000000000000000,
    ⟨1630000000000000, 6630000000000000, 19400000000000000, 23610000000000000⟩,
    ⟨34000000000000000, 101600000000000000, 255000000000000000, 289700000000000000⟩,
    ⟨240400000000000000, 37100000000000000, 4500000000000000, 4500000000000000⟩,
    ⟨27200000000000000, 2800000000000000, 1500000000000000, 1400000000000000⟩⟩,
  /- CF6-50C1, -C2 -/ ⟨[67, 70, 54, 45, 53, 48, 67, 49, 44, 32, 45, 67, 50], some 43000000000000000, some 2304000000000000000000, none, none, none, none,
    ⟨2150000000000000, 6600000000000000, 19750000000000000, 24870000000000000⟩,
    ⟨36000000000000000, 95000000000000000, 297000000000000000, 363000000000000000⟩,
    ⟨618000000000000000, 43000000000000000, 5000000000000000, 5000000000000000⟩,
    ⟨218000000000000000, 10000000000000000, 7000000000000000, 6000000000000000⟩⟩,
  /- CF6-50C2 -/ ⟨[67, 70, 54, 45, 53, 48, 67, 50], some 43000000000000000, some 2304000000000000000000, some 513990000000000000000, some 8000000000000000, some 178000000000000, some 350000000000000000000,
    ⟨1630000000000000, 6630000000000000, 19400000000000000, 23610000000000000⟩,
    ⟨34000000000000000, 101600000000000000, 255000000000000000, 289700000000000000⟩,
    ⟨240400000000000000, 37100000000000000, 4500000000000000, 4500000000000000⟩,
    ⟨27200000000000000, 2800000000000000, 1500000000000000, 1400000000000000⟩⟩,
  /- CF6-50C2B -/ ⟨[67, 70, 54, 45, 53, 48, 67, 50, 66], some 43000000000000000, some 2367000000000000000000, some 513990000000000000000, some 8000000000000000, some 178000000000000, some 350000000000000000000,
    ⟨1630000000000000, 6670000000000000, 19970000000000000, 24100000000000000⟩,
    ⟨34000000000000000, 104900000000000000, 263400000000000000, 295900000000000000⟩,
    ⟨240400000000000000, 34200000000000000, 4400000000000000, 4600000000000000⟩,
    ⟨27200000000000000, 2600000000000000, 1500000000000000, 1300000000000000⟩⟩,
  /- CF6-50C2R -/ ⟨[67, 70, 54, 45, 53, 48, 67, 50, 82], some 43000000000000000, some 2242000000000000000000, none, none, none, none,
    ⟨1630000000000000, 6410000000000000, 18750000000000000, 22810000000000000⟩,
    ⟨34000000000000000, 100900000000000000, 243000000000000000, 280300000000000000⟩,
    ⟨240400000000000000, 39900000000000000, 4600000000000000, 4400000000000000⟩,
    ⟨27200000000000000, 2900000000000000, 1400000000000000, 1400000000000000⟩⟩,
  /- CF6-50CA -/ ⟨[67, 70, 54, 45, 53, 48, 67, 65], some 43000000000000000, some 2242000000000000000000, none, none, none, none,
    ⟨1630000000000000, 6410000000000000, 18750000000000000, 22810000000000000⟩,
    ⟨34000000000000000, 100900000000000000, 243000000000000000, 280300000000000000⟩,
    ⟨240400000000000000, 39900000000000000, 4600000000000000, 4400000000000000⟩,
    ⟨27200000000000000, 2900000000000000, 1400000000000000, 1400000000000000⟩⟩,
  /- CF6-50E -/ ⟨[67, 70, 54, 45, 53, 48, 69], some 43000000000000000, some 2304000000000000000000, some 513990000000000000000, some 8000000000000000, some 186000000000000, some 350000000000000000000,
    ⟨1630000000000000, 6630000000000000, 19400000000000000, 23610000000000000⟩,
    ⟨34000000000000000, 101600000000000000, 255000000000000000, 289700000000000000⟩,
    ⟨240400000000000000, 37100000000000000, 4500000000000000, 4500000000000000⟩,
    ⟨27200000000000000, 2800000000000000, 1500000000000000, 1400000000000000⟩⟩,
  /- CF6-50E1 -/ ⟨[67, 70, 54, 45, 53, 48, 69, 49], some 43000000000000000, some 2304000000000000000000, some 513990000000000000000, some 8000000000000000, some 186000000000000, some 350000000000000000000,
    ⟨1630000000000000, 6630000000000000, 19400000000000000, 23610000000000000⟩,
    ⟨34000000000000000, 101600000000000000, 255000000000000000, 289700000000000000⟩,
    ⟨240400000000000000, 37100000000000000, 4500000000000000, 4500000000000000⟩,
    ⟨27200000000000000, 2800000000000000, 1500000000000000, 1400000000000000⟩⟩]

def engines4 : List EngineRow := [
  /- CF6-50E2 -/ ⟨[67, 70, 54, 45, 53, 48, 69, 50], some 43000000000000000, some 2304000000000000000000, some 513990000000000000000, some 8000000000000000, some 178000000000000, some 350000000000000000000,
    ⟨1630000000000000, 6630000000000000, 19400000000000000, 23610000000000000⟩,
    ⟨34000000000000000, 101600000000000000, 255000000000000000, 289700000000000000⟩,
    ⟨240400000000000000, 37100000000000000, 4500000000000000, 4500000000000000⟩,
    ⟨27200000000000000, 2800000000000000, 1500000000000000, 1400000000000000⟩⟩,
  /- CF6-50E2B -/ ⟨[67, 70, 54, 45, 53, 48, 69, 50, 66], some 43000000000000000, some 2367000000000000000000, some 521770000000000000000, some 8000000000000000, some 178000000000000, some 350000000000000000000,
    ⟨1630000000000000, 6670000000000000, 19970000000000000, 24100000000000000⟩,
    ⟨34000000000000000, 104900000000000000, 263400000000000000, 295900000000000000⟩,
    ⟨240400000000000000, 34200000000000000, 4400000000000000, 4600000000000000⟩,
    ⟨27200000000000000, 2600000000000000, 1500000000000000, 1300000000000000⟩⟩,
  /- CF6-6D -/ ⟨[67, 70, 54, 45, 54, 68], some 59000000000000000, some 1748000000000000000000, some 403890000000000000000, some 8000000000000000, some 183000000000000, some 350000000000000000000,
    ⟨1728000000000000, 4839000000000000, 14310000000000000, 17360000000000000⟩,
    ⟨45000000000000000, 114000000000000000, 326000000000000000, 400000000000000000⟩,
    ⟨542000000000000000, 65000000000000000, 5000000000000000, 5000000000000000⟩,
    ⟨210000000000000000, 7000000000000000, 3000000000000000, 3000000000000000⟩⟩,
  /- CF6-6D1A -/ ⟨[67, 70, 54, 45, 54, 68, 49, 65], some 59000000000000000, some 1819000000000000000000, some 410120000000000000000, some 8000000000000000, some 183000000000000, some 350000000000000000000,
    ⟨1760000000000000, 4940000000000000, 15020000000000000, 18120000000000000⟩,
    ⟨46000000000000000, 118000000000000000, 339000000000000000, 416000000000000000⟩,
    ⟨520000000000000000, 55000000000000000, 5000000000000000, 5000000000000000⟩,
    ⟨199000000000000000, 6000000000000000, 3000000000000000, 3000000000000000⟩⟩,
  /- CF6-6K -/ ⟨[67, 70, 54, 45, 54, 75], some 59000000000000000, some 1748000000000000000000, none, none, none, none,
    ⟨1728000000000000, 4839000000000000, 14310000000000000, 17360000000000000⟩,
    ⟨45000000000000000, 114000000000000000, 326000000000000000, 400000000000000000⟩,
    ⟨542000000000000000, 65000000000000000, 5000000000000000, 5000000000000000⟩,
    ⟨210000000000000000, 7000000000000000, 3000000000000000, 3000000000000000⟩⟩,
  /- CF6-6K2 -/ ⟨[67, 70, 54, 45, 54, 75, 50], some 59000000000000000, some 1819000000000000000000, none, none, none, none,
    ⟨1760000000000000, 4940000000000000, 15020000000000000, 18120000000000000⟩,
    ⟨46000000000000000, 118000000000000000, 339000000000000000, 416000000000000000⟩,
    ⟨520000000000000000, 55000000000000000, 5000000000000000, 5000000000000000⟩,
    ⟨199000000000000000, 6000000000000000, 3000000000000000, 3000000000000000⟩⟩,
  /- CF6-80A -/ ⟨[67, 70, 54, 45, 56, 48, 65], some 50000000000000000, some 2088000000000000000000, some 491300000000000000000, some 8000000000000000, some 176000000000000, some 350000000000000000000,
    ⟨1500000000000000, 6150000000000000, 17950000000000000, 21450000000000000⟩,
    ⟨34000000000000000, 103000000000000000, 256000000000000000, 298000000000000000⟩,
    ⟨282000000000000000, 31000000000000000, 11000000000000000, 10000000000000000⟩,
    ⟨62900000000000000, 4700000000000000, 2900000000000000, 2900000000000000⟩⟩,
  /- CF6-80A1 -/ ⟨[67, 70, 54, 45, 56, 48, 65, 49], some 50000000000000000, some 2090000000000000000000, some 491300000000000000000, some 8000000000000000, some 176000000000000, some 350000000000000000000,
    ⟨1500000000000000, 6150000000000000, 17950000000000000, 21450000000000000⟩,
    ⟨34000000000000000, 103000000000000000, 256000000000000000, 298000000000000000⟩,
    ⟨282000000000000000, 31000000000000000, 11000000000000000, 10000000000000000⟩,
    ⟨62900000000000000, 4700000000000000, 2900000000000000, 2900000000000000⟩⟩,
  /- CF6-80A2 -/ ⟨[67, 70, 54, 45, 56, 48, 65, 50], some 50000000000000000, some 2165000000000000000000, some 491300000000000000000, some 8000000000000000, some 176000000000000, some 350000000000000000000,
    ⟨1500000000000000, 6410000000000000, 18850000000000000, 22540000000000000⟩,
    ⟨34000000000000000, 108000000000000000, 266000000000000000, 296000000000000000⟩,
    ⟨282000000000000000, 28000000000000000, 11000000000000000, 10000000000000000⟩,
    ⟨62800000000000000, 4500000000000000, 3700000000000000, 3000000000000000⟩⟩,
  /- CF6-80A3 -/ ⟨[67, 70, 54, 45, 56, 48, 65, 51], some 50000000000000000, some 2178000000000000000000, some 491300000000000000000, some 8000000000000000, some 176000000000000, some 350000000000000000000,
    ⟨1500000000000000, 6410000000000000, 18850000000000000, 22540000000000000⟩,
    ⟨34000000000000000, 108000000000000000, 266000000000000000, 296000000000000000⟩,
    ⟨282000000000000000, 28000000000000000, 11000000000000000, 10000000000000000⟩,
    ⟨62800000000000000, 4500000000000000, 3700000000000000, 3000000000000000⟩⟩,
  /- CF6-80C2A1 -/ ⟨[67, 70, 54, 45, 56, 48, 67, 50, 65, 49], some 51000000000000000, some 2573990000000000000000, some 525330000000000000000, some 8000000000000000, some 163000000000000, some 350000000000000000000,
    ⟨2010000000000000, 6510000000000000, 19890000000000000, 24530000000000000⟩,
    ⟨46800000000000000, 124300000000000000, 204500000000000000, 265500000000000000⟩,
    ⟨197600000000000000, 20500000000000000, 400000000000000, 500000000000000⟩,
    ⟨15900000000000000, 1200000000000000, 500000000000000, 500000000000000⟩⟩,
  /- CF6-80C2A2 -/ ⟨[67, 70, 54, 45, 56, 48, 67, 50, 65, 50], some 51000000000000000, some 2333500000000000000000, some 503980000000000000000, some 8000000000000000, some 164000000000000, some 350000000000000000000,
    ⟨1920000000000000, 5900000000000000, 17710000000000000, 21520000000000000⟩,
    ⟨44900000000000000, 118600000000000000, 183700000000000000, 223500000000000000⟩,
    ⟨219700000000000000, 25600000000000000, 500000000000000, 400000000000000⟩,
    ⟨19000000000000000, 1200000000000000, 500000000000000, 500000000000000⟩⟩,
  /- CF6-80C2A3 -/ ⟨[67, 70, 54, 45, 56, 48, 67, 50, 65, 51], some 51000000000000000, some 2622200000000000000000, some 504420000000000000000, some 8000000000000000, some 163000000000000, some 350000000000000000000,
    ⟨2030000000000000, 6620000000000000, 20410000000000000, 25160000000000000⟩,
    ⟨47200000000000000, 124800000000000000, 210500000000000000, 276800000000000000⟩,
    ⟨193200000000000000, 19800000000000000, 400000000000000, 600000000000000⟩,
    ⟨15400000000000000, 1100000000000000, 500000000000000, 400000000000000⟩⟩,
  /- CF6-80C2A5 -/ ⟨[67, 70, 54, 45, 56, 48, 67, 50, 65, 53], some 51000000000000000, some 2673400000000000000000, none, none, none, none,
    ⟨2050000000000000, 6720000000000000, 20960000000000000, 25800000000000000⟩,
    ⟨47600000000000000, 125300000000000000, 216900000000000000, 285700000000000000⟩,
    ⟨188900000000000000, 19100000000000000, 400000000000000, 600000000000000⟩,
    ⟨14800000000000000, 1100000000000000, 500000000000000, 400000000000000⟩⟩,
  /- CF6-80C2A5F -/ ⟨[67, 70, 54, 45, 56, 48, 67, 50, 65, 53, 70], some 51000000000000000, some 2718800000000000000000, none, none, none, none,
    ⟨2200000000000000, 6910000000000000, 21060000000000000, 26300000000000000⟩,
    ⟨49000000000000000, 126400000000000000, 212700000000000000, 281100000000000000⟩,
    ⟨169600000000000000, 19200000000000000, 400000000000000, 500000000000000⟩,
    ⟨11800000000000000, 1100000000000000, 400000000000000, 500000000000000⟩⟩,
  /- CF6-80C2A8 -/ ⟨[67, 70, 54, 45, 56, 48, 67, 50, 65, 56], some 51000000000000000, some 2573700000000000000000, none, none, none, none,
    ⟨2010000000000000, 6510000000000000, 19890000000000000, 24440000000000000⟩,
    ⟨46800000000000000, 124300000000000000, 204500000000000000, 264200000000000000⟩,
    ⟨197600000000000000, 20500000000000000, 400000000000000, 500000000000000⟩,
    ⟨15900000000000000, 1200000000000000, 500000000000000, 500000000000000⟩⟩,
  /- CF6-80C2B1 -/ ⟨[67, 70, 54, 45, 56, 48, 67, 50, 66, 49], some 51000000000000000, some 2490100000000000000000, some 570260000000000000000, some 8000000000000000, some 163000000000000, some 350000000000000000000,
    ⟨1970000000000000, 6300000000000000, 19220000000000000, 23400000000000000⟩,
    ⟨46000000000000000, 123200000000000000, 196800000000000000, 249300000000000000⟩,
    ⟨206200000000000000, 21800000000000000, 400000000000000, 400000000000000⟩,
    ⟨17100000000000000, 1200000000000000, 500000000000000, 500000000000000⟩⟩,
  /- CF6-80C2B1F -/ ⟨[67, 70, 54, 45, 56, 48, 67, 50, 66, 49, 70], some 51000000000000000, some 2542600000000000000000, some 570260000000000000000, some 8000000000000000, some 160000000000000, some 350000000000000000000,
    ⟨1990000000000000, 6500000000000000, 19830000000000000, 24220000000000000⟩,
    ⟨47300000000000000, 124700000000000000, 197200000000000000, 249400000000000000⟩,
    ⟨192300000000000000, 21300000000000000, 400000000000000, 400000000000000⟩,
    ⟨15400000000000000, 1100000000000000, 500000000000000, 500000000000000⟩⟩,
  /- CF6-80C2B2 -/ ⟨[67, 70, 54, 45, 56, 48, 67, 50, 66, 50], some 51000000000000000, some 2310800000000000000000, some 533780000000000000000, some 8000000000000000, some 163000000000000, some 350000000000000000000,
    ⟨1900000000000000, 5850000000000000, 17560000000000000, 21240000000000000⟩,
    ⟨44500000000000000, 117900000000000000, 182500000000000000, 220200000000000000⟩,
    ⟨224100000000000000, 26100000000000000, 500000000000000, 400000000000000⟩,
    ⟨19700000000000000, 1200000000000000, 500000000000000, 500000000000000⟩⟩,
  /- CF6-80C2B2F -/ ⟨[67, 70, 54, 45, 56, 48, 67, 50, 66, 50, 70], some 51000000000000000, some 2313500000000000000000, none, none, none, none,
    ⟨1880000000000000, 5930000000000000, 17770000000000000, 21480000000000000⟩,
    ⟨45200000000000000, 118000000000000000, 180900000000000000, 215500000000000000⟩,
    ⟨215600000000000000, 26400000000000000, 600000000000000, 400000000000000⟩,
    ⟨18600000000000000, 1200000000000000, 500000000000000, 500000000000000⟩⟩,
  /- CF6-80C2B4 -/ ⟨[67, 70, 54, 45, 56, 48, 67, 50, 66, 52], some 51000000000000000, some 2543500000000000000000, none, none, none, none,
    ⟨2010000000000000, 6410000000000000, 19650000000000000, 24090000000000000⟩,
    ⟨46800000000000000, 123700000000000000, 201700000000000000, 259300000000000000⟩,
    ⟨197600000000000000, 21200000000000000, 400000000000000, 500000000000000⟩,
    ⟨15900000000000000, 1200000000000000, 500000000000000, 500000000000000⟩⟩,
  /- CF6-80C2B4F -/ ⟨[67, 70, 54, 45, 56, 48, 67, 50, 66, 52, 70], some 51000000000000000, some 2547900000000000000000, none, none, none, none,
    ⟨1990000000000000, 6500000000000000, 19830000000000000, 24320000000000000⟩,
    ⟨47300000000000000, 124700000000000000, 197200000000000000, 250800000000000000⟩,
    ⟨192300000000000000, 21300000000000000, 400000000000000, 400000000000000⟩,
    ⟨15400000000000000, 1100000000000000, 500000000000000, 500000000000000⟩⟩,
  /- CF6-80C2B5F -/ ⟨[67, 70, 54, 45, 56, 48, 67, 50, 66, 53, 70], some 51000000000000000, some 2725300000000000000000, none, none, none, none,
    ⟨2060000000000000, 6970000000000000, 21620000000000000, 26850000000000000⟩,
    ⟨49100000000000000, 127400000000000000, 217600000000000000, 285800000000000000⟩,
    ⟨174500000000000000, 18300000000000000, 400000000000000, 500000000000000⟩,
    ⟨13100000000000000, 1100000000000000, 500000000000000, 500000000000000⟩⟩,
  /- CF6-80C2B6 -/ ⟨[67, 70, 54, 45, 56, 48, 67, 50, 66, 54], some 51000000000000000, some 2672000000000000000000, none, none, none, none,
    ⟨2050000000000000, 6720000000000000, 20960000000000000, 25800000000000000⟩,
    ⟨47600000000000000, 125300000000000000, 216900000000000000, 285700000000000000⟩,
    ⟨188900000000000000, 19100000000000000, 400000000000000, 600000000000000⟩,
    ⟨14800000000000000, 1100000000000000, 500000000000000, 400000000000000⟩⟩,
  /- CF6-80C2B6F -/ ⟨[67, 70, 54, 45, 56, 48, 67, 50, 66, 54, 70], some 51000000000000000, some 2670300000000000000000, none, none, none, none,
    ⟨2030000000000000, 6820000000000000, 21040000000000000, 25940000000000000⟩,
    ⟨48100000000000000, 126300000000000000, 210500000000000000, 273800000000000000⟩,
    ⟨184200000000000000, 19300000000000000, 400000000000000, 500000000000000⟩,
    ⟨14300000000000000, 1100000000000000, 500000000000000, 500000000000000⟩⟩,
  /- CF6-80C2B7F -/ ⟨[67, 70, 54, 45, 56, 48, 67, 50, 66, 55, 70], some 51000000000000000, some 2670300000000000000000, none, none, none, none,
    ⟨2030000000000000, 6820000000000000, 21040000000000000, 25940000000000000⟩,
    ⟨48100000000000000, 126300000000000000, 210500000000000000, 273800000000000000⟩,
    ⟨184200000000000000, 19300000000000000, 400000000000000, 500000000000000⟩,
    ⟨14300000000000000, 1100000000000000, 500000000000000, 500000000000000⟩⟩,
  /- CF6-80C2B8F -/ ⟨[67, 70, 54, 45, 56, 48, 67, 50, 66, 56, 70], some 51000000000000000, some 2670000000000000000000, none, none, none, none,
    ⟨2050000000000000, 6850000000000000, 21060000000000000, 25830000000000000⟩,
    ⟨45900000000000000, 124200000000000000, 208400000000000000, 268500000000000000⟩,
    ⟨166900000000000000, 16900000000000000, 200000000000000, 300000000000000⟩,
    ⟨11400000000000000, 900000000000000, 400000000000000, 400000000000000⟩⟩,
  /- CF6-80C2B8FA -/ ⟨[67, 70, 54, 45, 56, 48, 67, 50, 66, 56, 70, 65], some 51000000000000000, some 2670200000000000000000, none, none, none, none,
    ⟨2050000000000000, 6880000000000000, 21170000000000000, 26050000000000000⟩,
    ⟨48300000000000000, 126300000000000000, 208500000000000000, 269000000000000000⟩,
    ⟨182700000000000000, 19700000000000000, 400000000000000, 500000000000000⟩,
    ⟨14100000000000000, 1100000000000000, 500000000000000, 500000000000000⟩⟩,
  /- CF6-80C2D1F -/ ⟨[67, 70, 54, 45, 56, 48, 67, 50, 68, 49, 70], some 51000000000000000, some 2699600000000000000000, none, none, none, none,
    ⟨2050000000000000, 6880000000000000, 21260000000000000, 26290000000000000⟩,
    ⟨48500000000000000, 126600000000000000, 213000000000000000, 281200000000000000⟩,
    ⟨180200000000000000, 19000000000000000, 400000000000000, 500000000000000⟩,
    ⟨13800000000000000, 1100000000000000, 500000000000000, 400000000000000⟩⟩,
  /- CF6-80E1A1 -/ ⟨[67, 70, 54, 45, 56, 48, 69, 49, 65, 49], some 51000000000000000, some 2815300000000000000000, none, none, none, none,
    ⟨2260000000000000, 7140000000000000, 21990000000000000, 27020000000000000⟩,
    ⟨48700000000000000, 126100000000000000, 214400000000000000, 275900000000000000⟩,
    ⟨176400000000000000, 19200000000000000, 400000000000000, 500000000000000⟩,
    ⟨13000000000000000, 1100000000000000, 400000000000000, 500000000000000⟩⟩,
  /- CF6-80E1A2 -/ ⟨[67, 70, 54, 45, 56, 48, 69, 49, 65, 50], some 51000000000000000, some 2870400000000000000000, none, none, none, none,
    ⟨2280000000000000, 7240000000000000, 22450000000000000, 27670000000000000⟩,
    ⟨48800000000000000, 126600000000000000, 220100000000000000, 287200000000000000⟩,
    ⟨173700000000000000, 18500000000000000, 400000000000000, 500000000000000⟩,
    ⟨12500000000000000, 1100000000000000, 400000000000000, 400000000000000⟩⟩,
  /- CF6-80E1A3 -/ ⟨[67, 70, 54, 45, 56, 48, 69, 49, 65, 51], some 51000000000000000, some 3048000000000000000000, none, none, none, none,
    ⟨2270000000000000, 7550000000000000, 23870000000000000, 29890000000000000⟩,
    ⟨46900000000000000, 102900000000000000, 317400000000000000, 456300000000000000⟩,
    ⟨370200000000000000, 12300000000000000, 3100000000000000, 3400000000000000⟩,
    ⟨95300000000000000, 1800000000000000, 700000000000000, 700000000000000⟩⟩,
  /- CF6-80E1A4 -/ ⟨[67, 70, 54, 45, 56, 48, 69, 49, 65, 52], some 51000000000000000, some 2974400000000000000000, none, none, none, none,
    ⟨2270000000000000, 7440000000000000, 23370000000000000, 29040000000000000⟩,
    ⟨47700000000000000, 126600000000000000, 235400000000000000, 312800000000000000⟩,
    ⟨150500000000000000, 14400000000000000, 200000000000000, 400000000000000⟩,
    ⟨9200000000000000, 900000000000000, 400000000000000, 400000000000000⟩⟩,
  /- GE90-110B1 -/ ⟨[71, 69, 57, 48, 45, 49, 49, 48, 66, 49], some 73000000000000000, some 4926000000000000000000, none, none, none, none,
    ⟨3340000000000000, 10290000000000000, 33750000000000000, 42260000000000000⟩,
    ⟨54210000000000000, 155300000000000000, 343870000000000000, 452470000000000000⟩,
    ⟨357240000000000000, 24990000000000000, 1430000000000000, 1280000000000000⟩,
    ⟨38650000000000000, 530000000000000, 240000000000000, 290000000000000⟩⟩,
  /- GE90-113B -/ ⟨[71, 69, 57, 48, 45, 49, 49, 51, 66], some 72000000000000000, some 5049000000000000000000, none, none, none, none,
    ⟨3380000000000000, 10540000000000000, 34840000000000000, 44300000000000000⟩,
    ⟨54750000000000000, 159000000000000000, 355300000000000000, 483510000000000000⟩,
    ⟨350360000000000000, 22950000000000000, 1400000000000000, 1260000000000000⟩,
    ⟨37260000000000000, 500000000000000, 240000000000000, 310000000000000⟩⟩,
  /- GE90-115B -/ ⟨[71, 69, 57, 48, 45, 49, 49, 53, 66], some 71000000000000000, some 5139000000000000000000, none, none, none, none,
    ⟨3410000000000000, 10730000000000000, 35660000000000000, 46000000000000000⟩,
    ⟨55110000000000000, 161660000000000000, 364400000000000000, 510680000000000000⟩,
    ⟨345780000000000000, 21600000000000000, 1370000000000000, 1250000000000000⟩,
    ⟨36360000000000000, 480000000000000, 240000000000000, 320000000000000⟩⟩,
  /- GE90-76B -/ ⟨[71, 69, 57, 48, 45, 55, 54, 66], some 85300000000000000, some 3632200000000000000000, some 778430000000000000000, some 8300000000000000, some 154000000000000, some 350000000000000000000,
    ⟨2580000000000000, 7380000000000000, 22810000000000000, 27960000000000000⟩,
    ⟨51000000000000000, 137600000000000000, 324300000000000000, 402500000000000000⟩,
    ⟨341200000000000000, 27700000000000000, 3200000000000000, 3100000000000000⟩,
    ⟨32100000000000000, 700000000000000, 300000000000000, 300000000000000⟩⟩,
  /- GE90-77B -/ ⟨[71, 69, 57, 48, 45, 55, 55, 66], some 85200000000000000, some 3667500000000000000000, none, none, none, none,
    ⟨2600000000000000, 7450000000000000, 23090000000000000, 28300000000000000⟩,
    ⟨51200000000000000, 138700000000000000, 327800000000000000, 408300000000000000⟩,
    ⟨338100000000000000, 27100000000000000, 3200000000000000, 3100000000000000⟩,
    ⟨31600000000000000, 700000000000000, 300000000000000, 300000000000000⟩⟩,
  /- GE90-85B -/ ⟨[71, 69, 57, 48, 45, 56, 53, 66], some 84100000000000000, some 3972100000000000000000, some 778430000000000000000, some 8300000000000000, some 147000000000000, some 350000000000000000000,
    ⟨2710000000000000, 8040000000000000, 25530000000000000, 31310000000000000⟩,
    ⟨53300000000000000, 147700000000000000, 363500000000000000, 455400000000000000⟩,
    ⟨313400000000000000, 21600000000000000, 3100000000000000, 3000000000000000⟩,
    ⟨28000000000000000, 600000000000000, 300000000000000, 400000000000000⟩⟩,
  /- GE90-90B -/ ⟨[71, 69, 57, 48, 45, 57, 48, 66], some 83600000000000000, some 4192500000000000000000, none, none, none, none,
    ⟨2800000000000000, 8520000000000000, 27350000000000000, 33800000000000000⟩,
    ⟨54800000000000000, 154400000000000000, 390700000000000000, 492100000000000000⟩,
    ⟨298900000000000000, 18800000000000000, 3100000000000000, 3000000000000000⟩,
    ⟨25900000000000000, 600000000000000, 300000000000000, 400000000000000⟩⟩]

def engines5 : List EngineRow := [
  /- GE90-92B -/ ⟨[71, 69, 57, 48, 45, 57, 50, 66], some 83300000000000000, some 4267200000000000000000, none, none, none, none,
    ⟨3040000000000000, 9170000000000000, 28440000000000000, 35150000000000000⟩,
    ⟨59200000000000000, 177400000000000000, 405100000000000000, 559000000000000000⟩,
    ⟨123500000000000000, 9400000000000000, 1500000000000000, 1500000000000000⟩,
    ⟨3700000000000000, 700000000000000, 400000000000000, 400000000000000⟩⟩,
  /- GE90-94B -/ ⟨[71, 69, 57, 48, 45, 57, 52, 66], some 83300000000000000, some 4309200000000000000000, none, none, none, none,
    ⟨2840000000000000, 8760000000000000, 28310000000000000, 35130000000000000⟩,
    ⟨55500000000000000, 158100000000000000, 406300000000000000, 513300000000000000⟩,
    ⟨292300000000000000, 17400000000000000, 3100000000000000, 3000000000000000⟩,
    ⟨24900000000000000, 600000000000000, 300000000000000, 400000000000000⟩⟩,
  /- GEnx-1B54 -/ ⟨[71, 69, 110, 120, 45, 49, 66, 53, 52], some 94000000000000000, some 2553000000000000000000, none, none, none, none,
    ⟨1840000000000000, 5230000000000000, 15530000000000000, 18780000000000000⟩,
    ⟨39800000000000000, 80700000000000000, 91800000000000000, 149600000000000000⟩,
    ⟨261000000000000000, 41800000000000000, 15500000000000000, 3600000000000000⟩,
    ⟨13400000000000000, 800000000000000, 200000000000000, 200000000000000⟩⟩,
  /- GEnx-1B58 -/ ⟨[71, 69, 110, 120, 45, 49, 66, 53, 56], some 92000000000000000, some 2713000000000000000000, none, none, none, none,
    ⟨1900000000000000, 5540000000000000, 16670000000000000, 20190000000000000⟩,
    ⟨40800000000000000, 84100000000000000, 110200000000000000, 180400000000000000⟩,
    ⟨243100000000000000, 36900000000000000, 8700000000000000, 2500000000000000⟩,
    ⟨11100000000000000, 700000000000000, 200000000000000, 200000000000000⟩⟩,
  /- GEnx-1B64 -/ ⟨[71, 69, 110, 120, 45, 49, 66, 54, 52], some 90000000000000000, some 2980000000000000000000, none, none, none, none,
    ⟨1990000000000000, 6040000000000000, 18610000000000000, 22650000000000000⟩,
    ⟨42400000000000000, 90300000000000000, 146100000000000000, 248200000000000000⟩,
    ⟨216200000000000000, 29900000000000000, 3800000000000000, 1800000000000000⟩,
    ⟨8100000000000000, 600000000000000, 200000000000000, 200000000000000⟩⟩,
  /- GEnx-1B67 -/ ⟨[71, 69, 110, 120, 45, 49, 66, 54, 55], some 89000000000000000, some 3087000000000000000000, none, none, none, none,
    ⟨2030000000000000, 6250000000000000, 19400000000000000, 23680000000000000⟩,
    ⟨43000000000000000, 92900000000000000, 162600000000000000, 285600000000000000⟩,
    ⟨207000000000000000, 27600000000000000, 3000000000000000, 1700000000000000⟩,
    ⟨7200000000000000, 600000000000000, 200000000000000, 200000000000000⟩⟩,
  /- GEnx-1B70 -/ ⟨[71, 69, 110, 120, 45, 49, 66, 55, 48], some 88000000000000000, some 3216000000000000000000, none, none, none, none,
    ⟨2080000000000000, 6500000000000000, 20370000000000000, 24940000000000000⟩,
    ⟨43700000000000000, 96300000000000000, 184800000000000000, 340600000000000000⟩,
    ⟨196800000000000000, 24900000000000000, 2400000000000000, 1700000000000000⟩,
    ⟨6300000000000000, 600000000000000, 200000000000000, 200000000000000⟩⟩,
  /- GEnx-2B67 -/ ⟨[71, 69, 110, 120, 45, 50, 66, 54, 55], some 80000000000000000, some 2998000000000000000000, none, none, none, none,
    ⟨2160000000000000, 7010000000000000, 20120000000000000, 24510000000000000⟩,
    ⟨44300000000000000, 95800000000000000, 179400000000000000, 312000000000000000⟩,
    ⟨189500000000000000, 25300000000000000, 2800000000000000, 1700000000000000⟩,
    ⟨5700000000000000, 600000000000000, 200000000000000, 200000000000000⟩⟩,
  /- GEnx-1B54/P1 -/ ⟨[71, 69, 110, 120, 45, 49, 66, 53, 52, 47, 80, 49], some 94000000000000000, some 2553000000000000000000, none, none, none, none,
    ⟨1950000000000000, 5360000000000000, 15690000000000000, 18930000000000000⟩,
    ⟨41100000000000000, 81300000000000000, 97100000000000000, 157200000000000000⟩,
    ⟨236100000000000000, 40900000000000000, 14300000000000000, 3400000000000000⟩,
    ⟨10200000000000000, 800000000000000, 200000000000000, 200000000000000⟩⟩,
  /- GEnx-1B58/P1 -/ ⟨[71, 69, 110, 120, 45, 49, 66, 53, 56, 47, 80, 49], some 92000000000000000, some 2713000000000000000000, none, none, none, none,
    ⟨2000000000000000, 5670000000000000, 16830000000000000, 20330000000000000⟩,
    ⟨42200000000000000, 84800000000000000, 116700000000000000, 188600000000000000⟩,
    ⟨219700000000000000, 36000000000000000, 8000000000000000, 2400000000000000⟩,
    ⟨8400000000000000, 700000000000000, 200000000000000, 200000000000000⟩⟩,
  /- GEnx-1B64/P1 -/ ⟨[71, 69, 110, 120, 45, 49, 66, 54, 52, 47, 80, 49], some 90000000000000000, some 2980000000000000000000, none, none, none, none,
    ⟨2100000000000000, 6180000000000000, 18760000000000000, 22780000000000000⟩,
    ⟨43700000000000000, 91100000000000000, 153600000000000000, 257400000000000000⟩,
    ⟨197300000000000000, 29100000000000000, 3600000000000000, 1800000000000000⟩,
    ⟨6400000000000000, 600000000000000, 200000000000000, 200000000000000⟩⟩,
  /- GEnx-1B67/P1 -/ ⟨[71, 69, 110, 120, 45, 49, 66, 54, 55, 47, 80, 49], some 89000000000000000, some 3087000000000000000000, none, none, none, none,
    ⟨2140000000000000, 6390000000000000, 19540000000000000, 23800000000000000⟩,
    ⟨44300000000000000, 93900000000000000, 170400000000000000, 293400000000000000⟩,
    ⟨189400000000000000, 26800000000000000, 2900000000000000, 1800000000000000⟩,
    ⟨5800000000000000, 600000000000000, 200000000000000, 200000000000000⟩⟩,
  /- GEnx-1B70/P1 -/ ⟨[71, 69, 110, 120, 45, 49, 66, 55, 48, 47, 80, 49], some 88000000000000000, some 3216000000000000000000, none, none, none, none,
    ⟨2190000000000000, 6640000000000000, 20510000000000000, 25050000000000000⟩,
    ⟨45000000000000000, 97300000000000000, 193000000000000000, 346100000000000000⟩,
    ⟨180500000000000000, 24200000000000000, 2350000000000000, 1700000000000000⟩,
    ⟨5200000000000000, 550000000000000, 200000000000000, 200000000000000⟩⟩,
  /- GEnx-1B70/72/P1 -/ ⟨[71, 69, 110, 120, 45, 49, 66, 55, 48, 47, 55, 50, 47, 80, 49], some 88000000000000000, some 3216000000000000000000, none, none, none, none,
    ⟨2190000000000000, 6640000000000000, 20510000000000000, 25050000000000000⟩,
    ⟨45000000000000000, 97300000000000000, 193000000000000000, 346100000000000000⟩,
    ⟨180500000000000000, 24200000000000000, 2350000000000000, 1700000000000000⟩,
    ⟨5200000000000000, 550000000000000, 200000000000000, 200000000000000⟩⟩,
  /- GEnx-1B70/75/P1 -/ ⟨[71, 69, 110, 120, 45, 49, 66, 55, 48, 47, 55, 53, 47, 80, 49], some 88000000000000000, some 3216000000000000000000, none, none, none, none,
    ⟨2190000000000000, 6640000000000000, 20510000000000000, 25050000000000000⟩,
    ⟨45000000000000000, 97300000000000000, 193000000000000000, 346100000000000000⟩,
    ⟨180500000000000000, 24200000000000000, 2350000000000000, 1700000000000000⟩,
    ⟨5200000000000000, 550000000000000, 200000000000000, 200000000000000⟩⟩,
  /- GEnx-1B74/75/P1 -/ ⟨[71, 69, 110, 120, 45, 49, 66, 55, 52, 47, 55, 53, 47, 80, 49], some 88000000000000000, some 3412000000000000000000, none, none, none, none,
    ⟨2260000000000000, 7030000000000000, 22020000000000000, 27090000000000000⟩,
    ⟨46100000000000000, 103000000000000000, 233600000000000000, 449600000000000000⟩,
    ⟨168600000000000000, 20900000000000000, 1900000000000000, 1700000000000000⟩,
    ⟨4400000000000000, 500000000000000, 200000000000000, 300000000000000⟩⟩,
  /- GEnx-1B75/P1 -/ ⟨[71, 69, 110, 120, 45, 49, 66, 55, 53, 47, 80, 49], some 88000000000000000, some 3452000000000000000000, none, none, none, none,
    ⟨2270000000000000, 7110000000000000, 22340000000000000, 27530000000000000⟩,
    ⟨46400000000000000, 104200000000000000, 243400000000000000, 475300000000000000⟩,
    ⟨166300000000000000, 20300000000000000, 1900000000000000, 1700000000000000⟩,
    ⟨4300000000000000, 500000000000000, 200000000000000, 300000000000000⟩⟩,
  /- GEnx-2B67B -/ ⟨[71, 69, 110, 120, 45, 50, 66, 54, 55, 66], some 80000000000000000, some 2998000000000000000000, none, none, none, none,
    ⟨2160000000000000, 7010000000000000, 20120000000000000, 24510000000000000⟩,
    ⟨44300000000000000, 95800000000000000, 179400000000000000, 312000000000000000⟩,
    ⟨189500000000000000, 25300000000000000, 2800000000000000, 1700000000000000⟩,
    ⟨5700000000000000, 600000000000000, 200000000000000, 200000000000000⟩⟩,
  /- GEnx-1B54/P2 -/ ⟨[71, 69, 110, 120, 45, 49, 66, 53, 52, 47, 80, 50], some 93900000000000000, some 2553000000000000000000, none, none, none, none,
    ⟨2030000000000000, 5270000000000000, 15540000000000000, 18800000000000000⟩,
    ⟨46600000000000000, 92700000000000000, 115400000000000000, 172200000000000000⟩,
    ⟨163900000000000000, 28100000000000000, 17300000000000000, 3200000000000000⟩,
    ⟨5800000000000000, 600000000000000, 200000000000000, 200000000000000⟩⟩,
  /- GEnx-1B58/P2 -/ ⟨[71, 69, 110, 120, 45, 49, 66, 53, 56, 47, 80, 50], some 92400000000000000, some 2713000000000000000000, none, none, none, none,
    ⟨2030000000000000, 5580000000000000, 16680000000000000, 20230000000000000⟩,
    ⟨46600000000000000, 96700000000000000, 132700000000000000, 204300000000000000⟩,
    ⟨163900000000000000, 25200000000000000, 9300000000000000, 1800000000000000⟩,
    ⟨5800000000000000, 500000000000000, 200000000000000, 200000000000000⟩⟩,
  /- GEnx-1B64/P2 -/ ⟨[71, 69, 110, 120, 45, 49, 66, 54, 52, 47, 80, 50], some 90100000000000000, some 2980000000000000000000, none, none, none, none,
    ⟨2040000000000000, 6090000000000000, 18630000000000000, 22730000000000000⟩,
    ⟨46900000000000000, 103900000000000000, 168500000000000000, 271200000000000000⟩,
    ⟨161300000000000000, 21100000000000000, 3400000000000000, 900000000000000⟩,
    ⟨5600000000000000, 500000000000000, 200000000000000, 200000000000000⟩⟩,
  /- GEnx-1B67/P2 -/ ⟨[71, 69, 110, 120, 45, 49, 66, 54, 55, 47, 80, 50], some 89200000000000000, some 3087000000000000000000, none, none, none, none,
    ⟨2090000000000000, 6290000000000000, 19430000000000000, 23760000000000000⟩,
    ⟨47600000000000000, 106700000000000000, 185700000000000000, 303200000000000000⟩,
    ⟨154900000000000000, 19700000000000000, 2400000000000000, 800000000000000⟩,
    ⟨5000000000000000, 500000000000000, 200000000000000, 200000000000000⟩⟩,
  /- GEnx-1B70/72/P2 -/ ⟨[71, 69, 110, 120, 45, 49, 66, 55, 48, 47, 55, 50, 47, 80, 50], some 88100000000000000, some 3216000000000000000000, none, none, none, none,
    ⟨2130000000000000, 6540000000000000, 20420000000000000, 25040000000000000⟩,
    ⟨48500000000000000, 110200000000000000, 208700000000000000, 347700000000000000⟩,
    ⟨147800000000000000, 18200000000000000, 1700000000000000, 600000000000000⟩,
    ⟨4400000000000000, 500000000000000, 200000000000000, 200000000000000⟩⟩,
  /- GEnx-1B70/75/P2 -/ ⟨[71, 69, 110, 120, 45, 49, 66, 55, 48, 47, 55, 53, 47, 80, 50], some 88100000000000000, some 3216000000000000000000, none, none, none, none,
    ⟨2130000000000000, 6540000000000000, 20420000000000000, 25040000000000000⟩,
    ⟨48500000000000000, 110200000000000000, 208700000000000000, 347700000000000000⟩,
    ⟨147800000000000000, 18200000000000000, 1700000000000000, 600000000000000⟩,
    ⟨4400000000000000, 500000000000000, 200000000000000, 200000000000000⟩⟩,
  /- GEnx-1B70/P2 -/ ⟨[71, 69, 110, 120, 45, 49, 66, 55, 48, 47, 80, 50], some 88100000000000000, some 3216000000000000000000, none, none, none, none,
    ⟨2130000000000000, 6540000000000000, 20420000000000000, 25040000000000000⟩,
    ⟨48500000000000000, 110200000000000000, 208700000000000000, 347700000000000000⟩,
    ⟨147800000000000000, 18200000000000000, 1700000000000000, 600000000000000⟩,
    ⟨4400000000000000, 500000000000000, 200000000000000, 200000000000000⟩⟩,
  /- GEnx-1B74/75/P2 -/ ⟨[71, 69, 110, 120, 45, 49, 66, 55, 52, 47, 55, 53, 47, 80, 50], some 86500000000000000, some 3412000000000000000000, none, none, none, none,
    ⟨2210000000000000, 6930000000000000, 21960000000000000, 27040000000000000⟩,
    ⟨49900000000000000, 115600000000000000, 249000000000000000, 427100000000000000⟩,
    ⟨138000000000000000, 16100000000000000, 1100000000000000, 500000000000000⟩,
    ⟨3800000000000000, 400000000000000, 200000000000000, 200000000000000⟩⟩,
  /- GEnx-1B75/P2 -/ ⟨[71, 69, 110, 120, 45, 49, 66, 55, 53, 47, 80, 50], some 86200000000000000, some 3452000000000000000000, none, none, none, none,
    ⟨2220000000000000, 7010000000000000, 22290000000000000, 27460000000000000⟩,
    ⟨50100000000000000, 116700000000000000, 258300000000000000, 446100000000000000⟩,
    ⟨136200000000000000, 15700000000000000, 1000000000000000, 500000000000000⟩,
    ⟨3700000000000000, 400000000000000, 200000000000000, 300000000000000⟩⟩,
  /- GEnx-1B76/P2 -/ ⟨[71, 69, 110, 120, 45, 49, 66, 55, 54, 47, 80, 50], some 85900000000000000, some 3492000000000000000000, none, none, none, none,
    ⟨2230000000000000, 7090000000000000, 22620000000000000, 27900000000000000⟩,
    ⟨50400000000000000, 117800000000000000, 267800000000000000, 469000000000000000⟩,
    ⟨134400000000000000, 15300000000000000, 900000000000000, 500000000000000⟩,
    ⟨3600000000000000, 400000000000000, 200000000000000, 300000000000000⟩⟩,
  /- GEnx-1B76A/P2 -/ ⟨[71, 69, 110, 120, 45, 49, 66, 55, 54, 65, 47, 80, 50], some 85900000000000000, some 3492000000000000000000, none, none, none, none,
    ⟨2230000000000000, 7090000000000000, 22620000000000000, 27900000000000000⟩,
    ⟨50400000000000000, 117800000000000000, 267800000000000000, 469000000000000000⟩,
    ⟨134400000000000000, 15300000000000000, 900000000000000, 500000000000000⟩,
    ⟨3600000000000000, 400000000000000, 200000000000000, 300000000000000⟩⟩,
  /- GEnx-2B67/P -/ ⟨[71, 69, 110, 120, 45, 50, 66, 54, 55, 47, 80], some 80300000000000000, some 2998100000000000000000, none, none, none, none,
    ⟨2190000000000000, 6420000000000000, 20090000000000000, 24530000000000000⟩,
    ⟨49200000000000000, 111100000000000000, 211000000000000000, 342100000000000000⟩,
    ⟨142800000000000000, 17800000000000000, 1700000000000000, 700000000000000⟩,
    ⟨4100000000000000, 400000000000000, 200000000000000, 200000000000000⟩⟩,
  /- Passport20-19BB1A -/ ⟨[80, 97, 115, 115, 112, 111, 114, 116, 50, 48, 45, 49, 57, 66, 66, 49, 65], some 58932200000000000, some 841590000000000000000, none, none, none, none,
    ⟨783289435619542, 2279468167353608, 6573682640192968, 8011861958573865⟩,
    ⟨65492306858561500, 148107487974103620, 287615322851424400, 376004648052337300⟩,
    ⟨110275363267119510, 12178408026797611, 2991157357677820, 2902707593924910⟩,
    ⟨402231703208704, 166878893031197, 98785822315869, 139345950270348⟩⟩,
  /- HTF7000 -/ ⟨[72, 84, 70, 55, 48, 48, 48], some 42000000000000000, some 306200000000000000000, none, none, none, none,
    ⟨480000000000000, 1040000000000000, 2880000000000000, 3470000000000000⟩,
    ⟨39100000000000000, 88100000000000000, 161700000000000000, 179000000000000000⟩,
    ⟨332400000000000000, 62800000000000000, 6300000000000000, 5600000000000000⟩,
    ⟨12600000000000000, 1200000000000000, 600000000000000, 500000000000000⟩⟩,
  /- HTF7250G -/ ⟨[72, 84, 70, 55, 50, 53, 48, 71], some 42000000000000000, some 328600000000000000000, none, none, none, none,
    ⟨490000000000000, 1070000000000000, 3080000000000000, 3720000000000000⟩,
    ⟨39650000000000000, 89600000000000000, 164400000000000000, 184300000000000000⟩,
    ⟨304800000000000000, 60700000000000000, 6000000000000000, 5700000000000000⟩,
    ⟨9900000000000000, 1200000000000000, 600000000000000, 500000000000000⟩⟩,
  /- HTF7350 -/ ⟨[72, 84, 70, 55, 51, 53, 48], some 42000000000000000, some 330000000000000000000, none, none, none, none,
    ⟨480000000000000, 1070000000000000, 3090000000000000, 3730000000000000⟩,
    ⟨39800000000000000, 90300000000000000, 166400000000000000, 187900000000000000⟩,
    ⟨309000000000000000, 59800000000000000, 5900000000000000, 5800000000000000⟩,
    ⟨10000000000000000, 1200000000000000, 600000000000000, 500000000000000⟩⟩,
  /- HTF7500E -/ ⟨[72, 84, 70, 55, 53, 48, 48, 69], some 42000000000000000, some 338300000000000000000, none, none, none, none,
    ⟨500000000000000, 1080000000000000, 3120000000000000, 3780000000000000⟩,
    ⟨40400000000000000, 92300000000000000, 168800000000000000, 190600000000000000⟩,
    ⟨280800000000000000, 57000000000000000, 5700000000000000, 5600000000000000⟩,
    ⟨8400000000000000, 1200000000000000, 600000000000000, 500000000000000⟩⟩,
  /- HTF7700L -/ ⟨[72, 84, 70, 55, 55, 48, 48, 76], some 42000000000000000, some 340300000000000000000, none, none, none, none,
    ⟨480000000000000, 1090000000000000, 3190000000000000, 3860000000000000⟩,
    ⟨40100000000000000, 92100000000000000, 169600000000000000, 194000000000000000⟩,
    ⟨296200000000000000, 57200000000000000, 5800000000000000, 6000000000000000⟩,
    ⟨9500000000000000, 1100000000000000, 600000000000000, 500000000000000⟩⟩,
  /- V2500-A1 -/ ⟨[86, 50, 53, 48, 48, 45, 65, 49], some 53000000000000000, some 1112000000000000000000, none, none, none, none,
    ⟨1240000000000000, 3340000000000000, 9240000000000000, 11130000000000000⟩,
    ⟨59100000000000000, 134500000000000000, 308200000000000000, 371300000000000000⟩,
    ⟨77600000000000000, 7700000000000000, 5500000000000000, 5500000000000000⟩,
    ⟨2200000000000000, 1500000000000000, 1100000000000000, 1000000000000000⟩⟩,
  /- V2522-A5 -/ ⟨[86, 50, 53, 50, 50, 45, 65, 53], some 49000000000000000, some 1025000000000000000000, none, none, none, none,
    ⟨1300000000000000, 3100000000000000, 8150000000000000, 9710000000000000⟩,
    ⟨50900000000000000, 93200000000000000, 183300000000000000, 213400000000000000⟩,
    ⟨124900000000000000, 25500000000000000, 4400000000000000, 4300000000000000⟩,
    ⟨1400000000000000, 700000000000000, 400000000000000, 300000000000000⟩⟩,
  /- V2524-A5 -/ ⟨[86, 50, 53, 50, 52, 45, 65, 53], some 48000000000000000, some 1089000000000000000000, none, none, none, none,
    ⟨1330000000000000, 3260000000000000, 8670000000000000, 10400000000000000⟩,
    ⟨51800000000000000, 96900000000000000, 192500000000000000, 229600000000000000⟩,
    ⟨120300000000000000, 22800000000000000, 4400000000000000, 4200000000000000⟩,
    ⟨1400000000000000, 700000000000000, 400000000000000, 300000000000000⟩⟩,
  /- V2525-D5 -/ ⟨[86, 50, 53, 50, 53, 45, 68, 53], some 48200000000000000, some 1112000000000000000000, none, none, none, none,
    ⟨1280000000000000, 3190000000000000, 8800000000000000, 10530000000000000⟩,
    ⟨47000000000000000, 89000000000000000, 223000000000000000, 265000000000000000⟩,
    ⟨124300000000000000, 24400000000000000, 6200000000000000, 5300000000000000⟩,
    ⟨1050000000000000, 610000000000000, 410000000000000, 410000000000000⟩⟩]

def engines6 : List EngineRow := [
  /- V2527-A5 -/ ⟨[86, 50, 53, 50, 55, 45, 65, 53], some 48000000000000000, some 1103000000000000000000, none, none, none, none,
    ⟨1340000000000000, 3280000000000000, 8730000000000000, 10490000000000000⟩,
    ⟨51900000000000000, 97400000000000000, 193600000000000000, 231800000000000000⟩,
    ⟨119600000000000000, 22500000000000000, 4400000000000000, 4200000000000000⟩,
    ⟨1400000000000000, 700000000000000, 300000000000000, 300000000000000⟩⟩,
  /- V2527-A5E -/ ⟨[86, 50, 53, 50, 55, 45, 65, 53, 69], some 48000000000000000, some 1103000000000000000000, none, none, none, none,
    ⟨1340000000000000, 3280000000000000, 8730000000000000, 10490000000000000⟩,
    ⟨51900000000000000, 97400000000000000, 193600000000000000, 231800000000000000⟩,
    ⟨119600000000000000, 22500000000000000, 4400000000000000, 4200000000000000⟩,
    ⟨1400000000000000, 700000000000000, 300000000000000, 300000000000000⟩⟩,
  /- V2527-A5M -/ ⟨[86, 50, 53, 50, 55, 45, 65, 53, 77], some 48000000000000000, some 1103000000000000000000, none, none, none, none,
    ⟨1340000000000000, 3280000000000000, 8730000000000000, 10490000000000000⟩,
    ⟨51900000000000000, 97400000000000000, 193600000000000000, 231800000000000000⟩,
    ⟨119600000000000000, 22500000000000000, 4400000000000000, 4200000000000000⟩,
    ⟨1400000000000000, 700000000000000, 300000000000000, 300000000000000⟩⟩,
  /- V2527E-A5 -/ ⟨[86, 50, 53, 50, 55, 69, 45, 65, 53], some 48200000000000000, some 1112000000000000000000, none, none, none, none,
    ⟨1280000000000000, 3190000000000000, 8800000000000000, 10530000000000000⟩,
    ⟨47000000000000000, 89000000000000000, 223000000000000000, 265000000000000000⟩,
    ⟨124300000000000000, 24400000000000000, 6200000000000000, 5300000000000000⟩,
    ⟨1100000000000000, 600000000000000, 400000000000000, 400000000000000⟩⟩,
  /- V2527M-A5 -/ ⟨[86, 50, 53, 50, 55, 77, 45, 65, 53], some 48200000000000000, some 1112000000000000000000, none, none, none, none,
    ⟨1280000000000000, 3190000000000000, 8800000000000000, 10530000000000000⟩,
    ⟨47000000000000000, 89000000000000000, 223000000000000000, 265000000000000000⟩,
    ⟨124300000000000000, 24400000000000000, 6200000000000000, 5300000000000000⟩,
    ⟨1100000000000000, 600000000000000, 400000000000000, 400000000000000⟩⟩,
  /- V2528-D5 -/ ⟨[86, 50, 53, 50, 56, 45, 68, 53], some 46600000000000000, some 1245000000000000000000, none, none, none, none,
    ⟨1340000000000000, 3530000000000000, 9960000000000000, 12090000000000000⟩,
    ⟨49000000000000000, 96000000000000000, 251000000000000000, 305000000000000000⟩,
    ⟨115300000000000000, 20300000000000000, 5600000000000000, 4700000000000000⟩,
    ⟨1020000000000000, 580000000000000, 410000000000000, 430000000000000⟩⟩,
  /- V2530-A5 -/ ⟨[86, 50, 53, 51, 48, 45, 65, 53], some 46000000000000000, some 1330000000000000000000, none, none, none, none,
    ⟨1450000000000000, 3870000000000000, 10780000000000000, 13250000000000000⟩,
    ⟨55200000000000000, 109200000000000000, 239200000000000000, 314300000000000000⟩,
    ⟨104500000000000000, 16500000000000000, 4100000000000000, 3900000000000000⟩,
    ⟨1200000000000000, 600000000000000, 300000000000000, 200000000000000⟩⟩,
  /- V2533-A5 -/ ⟨[86, 50, 53, 51, 51, 45, 65, 53], some 45000000000000000, some 1406000000000000000000, none, none, none, none,
    ⟨1470000000000000, 4050000000000000, 11420000000000000, 14330000000000000⟩,
    ⟨56000000000000000, 112400000000000000, 256500000000000000, 354300000000000000⟩,
    ⟨101200000000000000, 15400000000000000, 4100000000000000, 3800000000000000⟩,
    ⟨1200000000000000, 600000000000000, 200000000000000, 100000000000000⟩⟩,
  /- V2531-E5 -/ ⟨[86, 50, 53, 51, 49, 45, 69, 53], some 45200000000000000, some 1348000000000000000000, none, none, none, none,
    ⟨1440000000000000, 3910000000000000, 10790000000000000, 13290000000000000⟩,
    ⟨55800000000000000, 111400000000000000, 242800000000000000, 321700000000000000⟩,
    ⟨101700000000000000, 15700000000000000, 4100000000000000, 3900000000000000⟩,
    ⟨700000000000000, 900000000000000, 200000000000000, 100000000000000⟩⟩,
  /- NK-8-2U -/ ⟨[78, 75, 45, 56, 45, 50, 85], some 12400000000000000, some 1030000000000000000000, none, none, none, none,
    ⟨2400000000000000, 5800000000000000, 11700000000000000, 17500000000000000⟩,
    ⟨27000000000000000, 54000000000000000, 129000000000000000, 139000000000000000⟩,
    ⟨1160000000000000000, 210000000000000000, 60000000000000000, 55000000000000000⟩,
    ⟨1038000000000000000, 50000000000000000, 5500000000000000, 4500000000000000⟩⟩,
  /- NK-86 -/ ⟨[78, 75, 45, 56, 54], some 13300000000000000, some 1275300000000000000000, none, none, none, none,
    ⟨2100000000000000, 5800000000000000, 16000000000000000, 24000000000000000⟩,
    ⟨27000000000000000, 51000000000000000, 121000000000000000, 128000000000000000⟩,
    ⟨544000000000000000, 93000000000000000, 42000000000000000, 39000000000000000⟩,
    ⟨520000000000000000, 12000000000000000, 6000000000000000, 5000000000000000⟩⟩,
  /- NK-86A -/ ⟨[78, 75, 45, 56, 54, 65], some 11300000000000000, some 1304700000000000000000, none, none, none, none,
    ⟨2350000000000000, 6000000000000000, 17000000000000000, 20500000000000000⟩,
    ⟨31000000000000000, 58000000000000000, 124000000000000000, 157000000000000000⟩,
    ⟨380000000000000000, 78000000000000000, 22000000000000000, 18000000000000000⟩,
    ⟨153000000000000000, 22000000000000000, 2000000000000000, 2000000000000000⟩⟩,
  /- NK-86MA -/ ⟨[78, 75, 45, 56, 54, 77, 65], some 11300000000000000, some 1304700000000000000000, none, none, none, none,
    ⟨2350000000000000, 6000000000000000, 17000000000000000, 20500000000000000⟩,
    ⟨23000000000000000, 39000000000000000, 94000000000000000, 130000000000000000⟩,
    ⟨298000000000000000, 59000000000000000, 19000000000000000, 15500000000000000⟩,
    ⟨46000000000000000, 3000000000000000, 1300000000000000, 1600000000000000⟩⟩,
  /- SaM146-1S17 -/ ⟨[83, 97, 77, 49, 52, 54, 45, 49, 83, 49, 55], some 44400000000000000, some 692100000000000000000, none, none, none, none,
    ⟨970000000000000, 2280000000000000, 6530000000000000, 7910000000000000⟩,
    ⟨37300000000000000, 71000000000000000, 138900000000000000, 163700000000000000⟩,
    ⟨293600000000000000, 50700000000000000, 3600000000000000, 2600000000000000⟩,
    ⟨10500000000000000, 600000000000000, 400000000000000, 300000000000000⟩⟩,
  /- SaM146-1S18 -/ ⟨[83, 97, 77, 49, 52, 54, 45, 49, 83, 49, 56], some 43800000000000000, some 726700000000000000000, none, none, none, none,
    ⟨1000000000000000, 2380000000000000, 6910000000000000, 8410000000000000⟩,
    ⟨38200000000000000, 72800000000000000, 145200000000000000, 173600000000000000⟩,
    ⟨275500000000000000, 46700000000000000, 3000000000000000, 3000000000000000⟩,
    ⟨8200000000000000, 600000000000000, 400000000000000, 200000000000000⟩⟩,
  /- JT15D-1 -/ ⟨[74, 84, 49, 53, 68, 45, 49], some 33000000000000000, some 97900000000000000000, none, none, none, none,
    ⟨230000000000000, 510000000000000, 1240000000000000, 1480000000000000⟩,
    ⟨17500000000000000, 34400000000000000, 67700000000000000, 76000000000000000⟩,
    ⟨1320000000000000000, 405000000000000000, 35000000000000000, 26500000000000000⟩,
    ⟨505000000000000000, 44300000000000000, 100000000000000, 100000000000000⟩⟩,
  /- JT15D-4 -/ ⟨[74, 84, 49, 53, 68, 45, 52], some 26800000000000000, some 111200000000000000000, none, none, none, none,
    ⟨261000000000000, 590000000000000, 1430000000000000, 1697000000000000⟩,
    ⟨26300000000000000, 52900000000000000, 85600000000000000, 92300000000000000⟩,
    ⟨970000000000000000, 320000000000000000, 31800000000000000, 21000000000000000⟩,
    ⟨400000000000000000, 51500000000000000, 1900000000000000, 900000000000000⟩⟩,
  /- JT15D-5, -5A, -5B -/ ⟨[74, 84, 49, 53, 68, 45, 53, 44, 32, 45, 53, 65, 44, 32, 45, 53, 66], some 21000000000000000, some 129000000000000000000, none, none, none, none,
    ⟨296000000000000, 660000000000000, 1727000000000000, 2054000000000000⟩,
    ⟨16600000000000000, 49300000000000000, 100800000000000000, 111300000000000000⟩,
    ⟨1192000000000000000, 386000000000000000, 11500000000000000, 0⟩,
    ⟨1191000000000000000, 117000000000000000, 13000000000000000, 0⟩⟩,
  /- JT15D-5C -/ ⟨[74, 84, 49, 53, 68, 45, 53, 67], some 21000000000000000, some 141900000000000000000, none, none, none, none,
    ⟨276000000000000, 678000000000000, 1802000000000000, 2151000000000000⟩,
    ⟨10800000000000000, 52300000000000000, 97900000000000000, 99300000000000000⟩,
    ⟨1246000000000000000, 492400000000000000, 41800000000000000, 25200000000000000⟩,
    ⟨966700000000000000, 160000000000000000, 6700000000000000, 0⟩⟩,
  /- JT3D-3B -/ ⟨[74, 84, 51, 68, 45, 51, 66], some 14000000000000000, some 800600000000000000000, none, none, none, none,
    ⟨1350000000000000, 3460000000000000, 9320000000000000, 11740000000000000⟩,
    ⟨25000000000000000, 48000000000000000, 99000000000000000, 121000000000000000⟩,
    ⟨980000000000000000, 245000000000000000, 28000000000000000, 15000000000000000⟩,
    ⟨1120000000000000000, 40000000000000000, 20000000000000000, 40000000000000000⟩⟩,
  /- JT3D-7 -/ ⟨[74, 84, 51, 68, 45, 55], some 14000000000000000, some 845200000000000000000, none, none, none, none,
    ⟨1280000000000000, 3890000000000000, 10320000000000000, 12540000000000000⟩,
    ⟨22000000000000000, 53000000000000000, 95900000000000000, 126900000000000000⟩,
    ⟨1389900000000000000, 195000000000000000, 19000000000000000, 8900000000000000⟩,
    ⟨1230000000000000000, 21000000000000000, 4000000000000000, 5000000000000000⟩⟩,
  /- JT8D-11 -/ ⟨[74, 84, 56, 68, 45, 49, 49], some 10000000000000000, some 667200000000000000000, some 211290000000000000000, some 8000000000000000, some 228000000000000, some 300000000000000000000,
    ⟨1455000000000000, 3339000000000000, 9136000000000000, 11210000000000000⟩,
    ⟨27500000000000000, 58000000000000000, 146000000000000000, 189000000000000000⟩,
    ⟨350000000000000000, 94000000000000000, 19000000000000000, 12000000000000000⟩,
    ⟨100000000000000000, 14000000000000000, 4500000000000000, 4000000000000000⟩⟩,
  /- JT8D-15 -/ ⟨[74, 84, 56, 68, 45, 49, 53], some 10300000000000000, some 689400000000000000000, some 218850000000000000000, some 8000000000000000, some 229000000000000, some 300000000000000000000,
    ⟨1477000000000000, 3402000000000000, 9450000000000000, 11780000000000000⟩,
    ⟨32000000000000000, 69000000000000000, 151000000000000000, 194000000000000000⟩,
    ⟨110000000000000000, 27700000000000000, 11500000000000000, 10300000000000000⟩,
    ⟨14600000000000000, 5500000000000000, 2800000000000000, 2400000000000000⟩⟩,
  /- JT8D-15A -/ ⟨[74, 84, 56, 68, 45, 49, 53, 65], some 10800000000000000, some 689400000000000000000, some 218850000000000000000, some 8000000000000000, some 229000000000000, some 300000000000000000000,
    ⟨1372000000000000, 3120000000000000, 8955000000000000, 11150000000000000⟩,
    ⟨31000000000000000, 66000000000000000, 139000000000000000, 181000000000000000⟩,
    ⟨129300000000000000, 29000000000000000, 12000000000000000, 10800000000000000⟩,
    ⟨18600000000000000, 6500000000000000, 3300000000000000, 2500000000000000⟩⟩,
  /- JT8D-17 -/ ⟨[74, 84, 56, 68, 45, 49, 55], some 10200000000000000, some 711700000000000000000, some 228630000000000000000, some 8000000000000000, some 231000000000000, some 300000000000000000000,
    ⟨1474000000000000, 3540000000000000, 9970000000000000, 12450000000000000⟩,
    ⟨32000000000000000, 80000000000000000, 157000000000000000, 206000000000000000⟩,
    ⟨104600000000000000, 26700000000000000, 11000000000000000, 9500000000000000⟩,
    ⟨12500000000000000, 5200000000000000, 2700000000000000, 2200000000000000⟩⟩,
  /- JT8D-17A -/ ⟨[74, 84, 56, 68, 45, 49, 55, 65], some 10500000000000000, some 711700000000000000000, some 228630000000000000000, some 8000000000000000, some 219000000000000, some 300000000000000000000,
    ⟨1401000000000000, 3304000000000000, 9344000000000000, 11730000000000000⟩,
    ⟨32000000000000000, 67000000000000000, 143000000000000000, 191000000000000000⟩,
    ⟨124600000000000000, 28800000000000000, 11600000000000000, 10700000000000000⟩,
    ⟨66000000000000000, 6400000000000000, 3000000000000000, 2500000000000000⟩⟩,
  /- JT8D-17AR -/ ⟨[74, 84, 56, 68, 45, 49, 55, 65, 82], some 9600000000000000, some 774200000000000000000, some 228630000000000000000, some 8000000000000000, some 221000000000000, some 300000000000000000000,
    ⟨1477000000000000, 3574000000000000, 10470000000000000, 13650000000000000⟩,
    ⟨32000000000000000, 80000000000000000, 160000000000000000, 245000000000000000⟩,
    ⟨107000000000000000, 26800000000000000, 10800000000000000, 9300000000000000⟩,
    ⟨13300000000000000, 5500000000000000, 2700000000000000, 2100000000000000⟩⟩,
  /- JT8D-17R -/ ⟨[74, 84, 56, 68, 45, 49, 55, 82], some 9700000000000000, some 774200000000000000000, some 228630000000000000000, some 8000000000000000, some 232000000000000, some 300000000000000000000,
    ⟨1550000000000000, 3755000000000000, 11030000000000000, 14170000000000000⟩,
    ⟨33000000000000000, 84000000000000000, 176000000000000000, 253000000000000000⟩,
    ⟨94300000000000000, 25400000000000000, 10300000000000000, 9500000000000000⟩,
    ⟨9500000000000000, 5300000000000000, 2700000000000000, 2100000000000000⟩⟩,
  /- JT8D-209 -/ ⟨[74, 84, 56, 68, 45, 50, 48, 57], some 18000000000000000, some 856000000000000000000, some 219960000000000000000, some 8000000000000000, some 205000000000000, some 350000000000000000000,
    ⟨1303000000000000, 3592000000000000, 9828000000000000, 11910000000000000⟩,
    ⟨35000000000000000, 88000000000000000, 190000000000000000, 228000000000000000⟩,
    ⟨141000000000000000, 43700000000000000, 14000000000000000, 10300000000000000⟩,
    ⟨40300000000000000, 16900000000000000, 5000000000000000, 3500000000000000⟩⟩,
  /- JT8D-217 -/ ⟨[74, 84, 56, 68, 45, 50, 49, 55], some 17300000000000000, some 927400000000000000000, some 233080000000000000000, some 8000000000000000, some 213000000000000, some 350000000000000000000,
    ⟨1372000000000000, 3833000000000000, 10780000000000000, 13200000000000000⟩,
    ⟨37000000000000000, 91000000000000000, 206000000000000000, 257000000000000000⟩,
    ⟨122700000000000000, 41700000000000000, 12300000000000000, 8000000000000000⟩,
    ⟨33300000000000000, 16000000000000000, 4300000000000000, 2800000000000000⟩⟩,
  /- JT8D-217A -/ ⟨[74, 84, 56, 68, 45, 50, 49, 55, 65], some 17300000000000000, some 927400000000000000000, some 233080000000000000000, some 8000000000000000, some 213000000000000, some 350000000000000000000,
    ⟨1372000000000000, 3833000000000000, 10780000000000000, 13200000000000000⟩,
    ⟨45700000000000000, 76600000000000000, 135400000000000000, 175400000000000000⟩,
    ⟨153100000000000000, 35400000000000000, 4700000000000000, 4200000000000000⟩,
    ⟨0, 0, 0, 0⟩⟩,
  /- JT8D-217C -/ ⟨[74, 84, 56, 68, 45, 50, 49, 55, 67], some 17000000000000000, some 927400000000000000000, some 233080000000000000000, some 8000000000000000, some 208000000000000, some 350000000000000000000,
    ⟨1370000000000000, 3630000000000000, 10450000000000000, 12820000000000000⟩,
    ⟨40500000000000000, 76500000000000000, 130200000000000000, 164900000000000000⟩,
    ⟨178900000000000000, 37900000000000000, 4900000000000000, 4200000000000000⟩,
    ⟨0, 0, 0, 0⟩⟩,
  /- JT8D-219 -/ ⟨[74, 84, 56, 68, 45, 50, 49, 57], some 17000000000000000, some 965200000000000000000, some 233530000000000000000, some 8000000000000000, some 209000000000000, some 350000000000000000000,
    ⟨1344000000000000, 3817000000000000, 10850000000000000, 13540000000000000⟩,
    ⟨41600000000000000, 76500000000000000, 137300000000000000, 187200000000000000⟩,
    ⟨171900000000000000, 35700000000000000, 4600000000000000, 4200000000000000⟩,
    ⟨0, 0, 0, 0⟩⟩,
  /- JT8D-7 -/ ⟨[74, 84, 56, 68, 45, 55], some 10500000000000000, some 622700000000000000000, some 189930000000000000000, some 8000000000000000, some 225000000000000, some 300000000000000000000,
    ⟨1291000000000000, 2861000000000000, 8113000000000000, 9892000000000000⟩,
    ⟨31500000000000000, 63000000000000000, 140000000000000000, 172000000000000000⟩,
    ⟨143000000000000000, 22000000000000000, 11000000000000000, 9000000000000000⟩,
    ⟨38000000000000000, 4000000000000000, 2500000000000000, 2500000000000000⟩⟩,
  /- JT8D-9 -/ ⟨[74, 84, 56, 68, 45, 57], some 10400000000000000, some 645000000000000000000, some 201940000000000000000, some 8000000000000000, some 227000000000000, some 300000000000000000000,
    ⟨1323000000000000, 2977000000000000, 8453000000000000, 10400000000000000⟩,
    ⟨29000000000000000, 60000000000000000, 145000000000000000, 193000000000000000⟩,
    ⟨141400000000000000, 21400000000000000, 11100000000000000, 10400000000000000⟩,
    ⟨31200000000000000, 6000000000000000, 1800000000000000, 1500000000000000⟩⟩,
  /- JT9D-20J -/ ⟨[74, 84, 57, 68, 45, 50, 48, 74], some 51000000000000000, some 2224000000000000000000, some 475060000000000000000, some 8500000000000000, some 177000000000000, some 350000000000000000000,
    ⟨2380000000000000, 6790000000000000, 19020000000000000, 23150000000000000⟩,
    ⟨33000000000000000, 94000000000000000, 349000000000000000, 449000000000000000⟩,
    ⟨667000000000000000, 55000000000000000, 9000000000000000, 9000000000000000⟩,
    ⟨245000000000000000, 5000000000000000, 0, 0⟩⟩,
  /- JT9D-59A -/ ⟨[74, 84, 57, 68, 45, 53, 57, 65], some 49000000000000000, some 2358000000000000000000, some 531560000000000000000, some 8500000000000000, some 179000000000000, some 350000000000000000000,
    ⟨2370000000000000, 6804000000000000, 19996000000000000, 24419000000000000⟩,
    ⟨30000000000000000, 78000000000000000, 256000000000000000, 316000000000000000⟩,
    ⟨530000000000000000, 17000000000000000, 2000000000000000, 2000000000000000⟩,
    ⟨120000000000000000, 3000000000000000, 2000000000000000, 2000000000000000⟩⟩,
  /- JT9D-70A -/ ⟨[74, 84, 57, 68, 45, 55, 48, 65], some 49000000000000000, some 2358000000000000000000, some 531560000000000000000, some 8500000000000000, some 179000000000000, some 350000000000000000000,
    ⟨2370000000000000, 6804000000000000, 19996000000000000, 24419000000000000⟩,
    ⟨30000000000000000, 78000000000000000, 256000000000000000, 316000000000000000⟩,
    ⟨530000000000000000, 17000000000000000, 2000000000000000, 2000000000000000⟩,
    ⟨120000000000000000, 3000000000000000, 2000000000000000, 2000000000000000⟩⟩,
  /- JT9D-7F -/ ⟨[74, 84, 57, 68, 45, 55, 70], some 51000000000000000, some 2135000000000000000000, some 491520000000000000000, some 8500000000000000, some 179000000000000, some 350000000000000000000,
    ⟨2320000000000000, 6240000000000000, 17790000000000000, 21610000000000000⟩,
    ⟨32000000000000000, 91000000000000000, 315000000000000000, 417000000000000000⟩,
    ⟨686000000000000000, 58000000000000000, 9000000000000000, 9000000000000000⟩,
    ⟨259000000000000000, 6000000000000000, 0, 0⟩⟩,
  /- JT9D-7J -/ ⟨[74, 84, 57, 68, 45, 55, 74], some 51000000000000000, some 2224000000000000000000, some 491520000000000000000, some 8500000000000000, some 179000000000000, some 350000000000000000000,
    ⟨2380000000000000, 6790000000000000, 19020000000000000, 23150000000000000⟩,
    ⟨33000000000000000, 94000000000000000, 349000000000000000, 449000000000000000⟩,
    ⟨667000000000000000, 55000000000000000, 9000000000000000, 9000000000000000⟩,
    ⟨245000000000000000, 5000000000000000, 0, 0⟩⟩]

def engines7 : List EngineRow := [
  /- JT9D-7Q -/ ⟨[74, 84, 57, 68, 45, 55, 81], some 49000000000000000, some 2357500000000000000000, some 531560000000000000000, some 8500000000000000, some 179000000000000, some 350000000000000000000,
    ⟨2370000000000000, 6804000000000000, 19996000000000000, 24419000000000000⟩,
    ⟨30000000000000000, 78000000000000000, 256000000000000000, 316000000000000000⟩,
    ⟨530000000000000000, 17000000000000000, 2000000000000000, 2000000000000000⟩,
    ⟨120000000000000000, 3000000000000000, 2000000000000000, 2000000000000000⟩⟩,
  /- JT9D-7R4D, -7R4D1 -/ ⟨[74, 84, 57, 68, 45, 55, 82, 52, 68, 44, 32, 45, 55, 82, 52, 68, 49], some 50000000000000000, some 2135000000000000000000, none, none, none, none,
    ⟨2054000000000000, 6593000000000000, 16780000000000000, 20550000000000000⟩,
    ⟨41000000000000000, 98000000000000000, 300000000000000000, 385000000000000000⟩,
    ⟨88400000000000000, 13600000000000000, 4800000000000000, 5100000000000000⟩,
    ⟨12500000000000000, 1300000000000000, 1200000000000000, 1500000000000000⟩⟩,
  /- JT9D-7R4E, -7R4E1 -/ ⟨[74, 84, 57, 68, 45, 55, 82, 52, 69, 44, 32, 45, 55, 82, 52, 69, 49], some 50000000000000000, some 2224000000000000000000, none, none, none, none,
    ⟨2210000000000000, 6529000000000000, 17240000000000000, 21180000000000000⟩,
    ⟨41000000000000000, 104000000000000000, 342000000000000000, 416000000000000000⟩,
    ⟨82700000000000000, 12300000000000000, 5300000000000000, 5700000000000000⟩,
    ⟨11100000000000000, 1300000000000000, 1300000000000000, 1600000000000000⟩⟩,
  /- JT9D-7R4E4, -E1 -/ ⟨[74, 84, 57, 68, 45, 55, 82, 52, 69, 52, 44, 32, 45, 69, 49], some 50000000000000000, some 2224100000000000000000, none, none, none, none,
    ⟨2205000000000000, 6400000000000000, 18290000000000000, 22180000000000000⟩,
    ⟨35000000000000000, 85000000000000000, 297000000000000000, 369000000000000000⟩,
    ⟨160000000000000000, 14600000000000000, 6700000000000000, 6700000000000000⟩,
    ⟨33500000000000000, 2200000000000000, 1300000000000000, 1500000000000000⟩⟩,
  /- JT9D-7R4G2 -/ ⟨[74, 84, 57, 68, 45, 55, 82, 52, 71, 50], some 48000000000000000, some 2435000000000000000000, some 544900000000000000000, some 8500000000000000, some 181000000000000, some 350000000000000000000,
    ⟨2239000000000000, 6590000000000000, 18800000000000000, 24290000000000000⟩,
    ⟨38000000000000000, 88000000000000000, 295000000000000000, 413000000000000000⟩,
    ⟨118200000000000000, 14000000000000000, 6300000000000000, 7400000000000000⟩,
    ⟨15500000000000000, 1800000000000000, 1400000000000000, 1500000000000000⟩⟩,
  /- JT9D-7R4H1 -/ ⟨[74, 84, 57, 68, 45, 55, 82, 52, 72, 49], some 48000000000000000, some 2491000000000000000000, some 544900000000000000000, some 8500000000000000, some 178000000000000, some 350000000000000000000,
    ⟨2454000000000000, 7227000000000000, 19990000000000000, 25120000000000000⟩,
    ⟨38000000000000000, 89000000000000000, 300000000000000000, 452000000000000000⟩,
    ⟨116300000000000000, 13900000000000000, 6300000000000000, 7400000000000000⟩,
    ⟨14800000000000000, 1800000000000000, 1400000000000000, 1500000000000000⟩⟩,
  /- PW814GA -/ ⟨[80, 87, 56, 49, 52, 71, 65], some 56600000000000000, some 686300000000000000000, none, none, none, none,
    ⟨700000000000000, 1940000000000000, 5490000000000000, 6670000000000000⟩,
    ⟨62500000000000000, 114600000000000000, 179400000000000000, 232600000000000000⟩,
    ⟨138800000000000000, 17600000000000000, 0, 0⟩,
    ⟨500000000000000, 200000000000000, 0, 0⟩⟩,
  /- PW815GA -/ ⟨[80, 87, 56, 49, 53, 71, 65], some 56000000000000000, some 712200000000000000000, none, none, none, none,
    ⟨710000000000000, 2010000000000000, 5730000000000000, 6990000000000000⟩,
    ⟨64100000000000000, 114700000000000000, 188900000000000000, 248800000000000000⟩,
    ⟨134000000000000000, 15000000000000000, 0, 0⟩,
    ⟨500000000000000, 200000000000000, 0, 0⟩⟩,
  /- PW1122G-JM -/ ⟨[80, 87, 49, 49, 50, 50, 71, 45, 74, 77], some 127200000000000000, some 1078200000000000000000, none, none, none, none,
    ⟨800000000000000, 2100000000000000, 6000000000000000, 7100000000000000⟩,
    ⟨47200000000000000, 89200000000000000, 138500000000000000, 164700000000000000⟩,
    ⟨297800000000000000, 63900000000000000, 3800000000000000, 2600000000000000⟩,
    ⟨5500000000000000, 200000000000000, 1000000000000000, 1000000000000000⟩⟩,
  /- PW1124G1-JM -/ ⟨[80, 87, 49, 49, 50, 52, 71, 49, 45, 74, 77], some 127200000000000000, some 1078200000000000000000, none, none, none, none,
    ⟨800000000000000, 2100000000000000, 6000000000000000, 7100000000000000⟩,
    ⟨47200000000000000, 89200000000000000, 138500000000000000, 164700000000000000⟩,
    ⟨297800000000000000, 63900000000000000, 3800000000000000, 2600000000000000⟩,
    ⟨5500000000000000, 200000000000000, 1000000000000000, 1000000000000000⟩⟩,
  /- PW1124G-JM -/ ⟨[80, 87, 49, 49, 50, 52, 71, 45, 74, 77], some 127200000000000000, some 1078200000000000000000, none, none, none, none,
    ⟨800000000000000, 2100000000000000, 6000000000000000, 7100000000000000⟩,
    ⟨47200000000000000, 89200000000000000, 138500000000000000, 164700000000000000⟩,
    ⟨297800000000000000, 63900000000000000, 3800000000000000, 2600000000000000⟩,
    ⟨5500000000000000, 200000000000000, 1000000000000000, 1000000000000000⟩⟩,
  /- PW1127G1-JM -/ ⟨[80, 87, 49, 49, 50, 55, 71, 49, 45, 74, 77], some 122800000000000000, some 1204300000000000000000, none, none, none, none,
    ⟨800000000000000, 2322000000000000, 6700000000000000, 8000000000000000⟩,
    ⟨48400000000000000, 90700000000000000, 153000000000000000, 188200000000000000⟩,
    ⟨279300000000000000, 53600000000000000, 3000000000000000, 2200000000000000⟩,
    ⟨4300000000000000, 200000000000000, 400000000000000, 200000000000000⟩⟩,
  /- PW1127GA-JM -/ ⟨[80, 87, 49, 49, 50, 55, 71, 65, 45, 74, 77], some 122800000000000000, some 1204300000000000000000, none, none, none, none,
    ⟨800000000000000, 2322000000000000, 6700000000000000, 8000000000000000⟩,
    ⟨48400000000000000, 90700000000000000, 153000000000000000, 188200000000000000⟩,
    ⟨279300000000000000, 53600000000000000, 3000000000000000, 2200000000000000⟩,
    ⟨4300000000000000, 200000000000000, 400000000000000, 200000000000000⟩⟩,
  /- PW1127G-JM -/ ⟨[80, 87, 49, 49, 50, 55, 71, 45, 74, 77], some 122800000000000000, some 1204300000000000000000, none, none, none, none,
    ⟨800000000000000, 2322000000000000, 6700000000000000, 8000000000000000⟩,
    ⟨48400000000000000, 90700000000000000, 153000000000000000, 188200000000000000⟩,
    ⟨279300000000000000, 53600000000000000, 3000000000000000, 2200000000000000⟩,
    ⟨4300000000000000, 200000000000000, 400000000000000, 200000000000000⟩⟩,
  /- PW1129G-JM -/ ⟨[80, 87, 49, 49, 50, 57, 71, 45, 74, 77], some 120000000000000000, some 1300800000000000000000, none, none, none, none,
    ⟨800000000000000, 2546000000000000, 7300000000000000, 8800000000000000⟩,
    ⟨49800000000000000, 91900000000000000, 168400000000000000, 209800000000000000⟩,
    ⟨265200000000000000, 45800000000000000, 2500000000000000, 2100000000000000⟩,
    ⟨3600000000000000, 200000000000000, 400000000000000, 200000000000000⟩⟩,
  /- PW1130G-JM -/ ⟨[80, 87, 49, 49, 51, 48, 71, 45, 74, 77], some 115800000000000000, some 1472800000000000000000, none, none, none, none,
    ⟨988000000000000, 2783400000000000, 8385000000000000, 10230000000000000⟩,
    ⟨53100000000000000, 94000000000000000, 198400000000000000, 254600000000000000⟩,
    ⟨240600000000000000, 34400000000000000, 2200000000000000, 2300000000000000⟩,
    ⟨2600000000000000, 200000000000000, 500000000000000, 200000000000000⟩⟩,
  /- PW1133GA-JM -/ ⟨[80, 87, 49, 49, 51, 51, 71, 65, 45, 74, 77], some 115800000000000000, some 1472800000000000000000, none, none, none, none,
    ⟨988000000000000, 2783400000000000, 8385000000000000, 10230000000000000⟩,
    ⟨53100000000000000, 94000000000000000, 198400000000000000, 254600000000000000⟩,
    ⟨240600000000000000, 34400000000000000, 2200000000000000, 2300000000000000⟩,
    ⟨2600000000000000, 200000000000000, 500000000000000, 200000000000000⟩⟩,
  /- PW1133G-JM -/ ⟨[80, 87, 49, 49, 51, 51, 71, 45, 74, 77], some 115800000000000000, some 1472800000000000000000, none, none, none, none,
    ⟨988000000000000, 2783400000000000, 8385000000000000, 10230000000000000⟩,
    ⟨53100000000000000, 94000000000000000, 198400000000000000, 254600000000000000⟩,
    ⟨240600000000000000, 34400000000000000, 2200000000000000, 2300000000000000⟩,
    ⟨2600000000000000, 200000000000000, 500000000000000, 200000000000000⟩⟩,
  /- PW1215G -/ ⟨[80, 87, 49, 50, 49, 53, 71], some 86000000000000000, some 676600000000000000000, none, none, none, none,
    ⟨650000000000000, 1660000000000000, 4610000000000000, 5510000000000000⟩,
    ⟨48000000000000000, 83000000000000000, 158000000000000000, 200000000000000000⟩,
    ⟨160000000000000000, 30000000000000000, 4000000000000000, 4000000000000000⟩,
    ⟨200000000000000, 200000000000000, 200000000000000, 300000000000000⟩⟩,
  /- PW1217G -/ ⟨[80, 87, 49, 50, 49, 55, 71], some 83300000000000000, some 757200000000000000000, none, none, none, none,
    ⟨690000000000000, 1840000000000000, 5240000000000000, 6340000000000000⟩,
    ⟨51000000000000000, 86000000000000000, 186000000000000000, 253000000000000000⟩,
    ⟨142000000000000000, 25000000000000000, 4000000000000000, 3000000000000000⟩,
    ⟨100000000000000, 100000000000000, 200000000000000, 400000000000000⟩⟩,
  /- PW1525G -/ ⟨[80, 87, 49, 53, 50, 53, 71], some 110500000000000000, some 1085300000000000000000, none, none, none, none,
    ⟨800000000000000, 2300000000000000, 6500000000000000, 7900000000000000⟩,
    ⟨60000000000000000, 104000000000000000, 205000000000000000, 260000000000000000⟩,
    ⟨167000000000000000, 18000000000000000, 0, 0⟩,
    ⟨1000000000000000, 1000000000000000, 0, 0⟩⟩,
  /- PW1524G -/ ⟨[80, 87, 49, 53, 50, 52, 71], some 110500000000000000, some 1085300000000000000000, none, none, none, none,
    ⟨800000000000000, 2300000000000000, 6500000000000000, 7900000000000000⟩,
    ⟨60000000000000000, 104000000000000000, 205000000000000000, 260000000000000000⟩,
    ⟨167000000000000000, 18000000000000000, 0, 0⟩,
    ⟨1000000000000000, 1000000000000000, 0, 0⟩⟩,
  /- PW1521G -/ ⟨[80, 87, 49, 53, 50, 49, 71], some 113700000000000000, some 977200000000000000000, none, none, none, none,
    ⟨700000000000000, 2100000000000000, 5800000000000000, 6900000000000000⟩,
    ⟨56000000000000000, 101000000000000000, 181000000000000000, 221000000000000000⟩,
    ⟨193000000000000000, 25000000000000000, 0, 0⟩,
    ⟨1000000000000000, 1000000000000000, 0, 0⟩⟩,
  /- PW1521GA -/ ⟨[80, 87, 49, 53, 50, 49, 71, 65], some 113700000000000000, some 977200000000000000000, none, none, none, none,
    ⟨700000000000000, 2100000000000000, 5800000000000000, 6900000000000000⟩,
    ⟨56000000000000000, 101000000000000000, 181000000000000000, 221000000000000000⟩,
    ⟨193000000000000000, 25000000000000000, 0, 0⟩,
    ⟨1000000000000000, 1000000000000000, 0, 0⟩⟩,
  /- PW1519G -/ ⟨[80, 87, 49, 53, 49, 57, 71], some 116400000000000000, some 879600000000000000000, none, none, none, none,
    ⟨700000000000000, 1900000000000000, 5200000000000000, 6200000000000000⟩,
    ⟨53000000000000000, 98000000000000000, 166000000000000000, 196000000000000000⟩,
    ⟨214000000000000000, 33000000000000000, 0, 0⟩,
    ⟨2000000000000000, 1000000000000000, 0, 0⟩⟩,
  /- PW1919G -/ ⟨[80, 87, 49, 57, 49, 57, 71], some 116000000000000000, some 927900000000000000000, none, none, none, none,
    ⟨700000000000000, 2000000000000000, 5400000000000000, 6500000000000000⟩,
    ⟨52000000000000000, 98000000000000000, 167000000000000000, 200000000000000000⟩,
    ⟨222000000000000000, 33000000000000000, 0, 0⟩,
    ⟨2000000000000000, 1000000000000000, 0, 0⟩⟩,
  /- PW1921G -/ ⟨[80, 87, 49, 57, 50, 49, 71], some 113600000000000000, some 1003000000000000000000, none, none, none, none,
    ⟨700000000000000, 2100000000000000, 5900000000000000, 7100000000000000⟩,
    ⟨55000000000000000, 100000000000000000, 181000000000000000, 222000000000000000⟩,
    ⟨198000000000000000, 27000000000000000, 0, 0⟩,
    ⟨1000000000000000, 1000000000000000, 0, 0⟩⟩,
  /- PW1922G -/ ⟨[80, 87, 49, 57, 50, 50, 71], some 111600000000000000, some 1059300000000000000000, none, none, none, none,
    ⟨700000000000000, 2200000000000000, 6300000000000000, 7600000000000000⟩,
    ⟨57000000000000000, 102000000000000000, 193000000000000000, 242000000000000000⟩,
    ⟨184000000000000000, 23000000000000000, 0, 0⟩,
    ⟨1000000000000000, 1000000000000000, 0, 0⟩⟩,
  /- PW1923G-A -/ ⟨[80, 87, 49, 57, 50, 51, 71, 45, 65], some 111600000000000000, some 1059300000000000000000, none, none, none, none,
    ⟨700000000000000, 2200000000000000, 6300000000000000, 7600000000000000⟩,
    ⟨57000000000000000, 102000000000000000, 193000000000000000, 242000000000000000⟩,
    ⟨184000000000000000, 23000000000000000, 0, 0⟩,
    ⟨1000000000000000, 1000000000000000, 0, 0⟩⟩,
  /- PW1923G -/ ⟨[80, 87, 49, 57, 50, 51, 71], some 111600000000000000, some 1059300000000000000000, none, none, none, none,
    ⟨700000000000000, 2200000000000000, 6300000000000000, 7600000000000000⟩,
    ⟨57000000000000000, 102000000000000000, 193000000000000000, 242000000000000000⟩,
    ⟨184000000000000000, 23000000000000000, 0, 0⟩,
    ⟨1000000000000000, 1000000000000000, 0, 0⟩⟩,
  /- PW2037 -/ ⟨[80, 87, 50, 48, 51, 55], some 57100000000000000, some 1663500000000000000000, some 289130000000000000000, some 8500000000000000, some 165000000000000, some 350000000000000000000,
    ⟨1520000000000000, 4580000000000000, 13070000000000000, 15710000000000000⟩,
    ⟨41000000000000000, 97700000000000000, 239600000000000000, 294100000000000000⟩,
    ⟨223600000000000000, 19500000000000000, 3400000000000000, 3300000000000000⟩,
    ⟨19200000000000000, 1100000000000000, 200000000000000, 200000000000000⟩⟩,
  /- PW2040 -/ ⟨[80, 87, 50, 48, 52, 48], some 55400000000000000, some 1820200000000000000000, some 289130000000000000000, some 8500000000000000, some 165000000000000, some 350000000000000000000,
    ⟨1590000000000000, 4960000000000000, 14450000000000000, 17520000000000000⟩,
    ⟨43700000000000000, 104900000000000000, 266200000000000000, 350400000000000000⟩,
    ⟨199500000000000000, 14200000000000000, 4100000000000000, 3200000000000000⟩,
    ⟨16500000000000000, 1000000000000000, 200000000000000, 100000000000000⟩⟩,
  /- PW306A -/ ⟨[80, 87, 51, 48, 54, 65], some 45000000000000000, some 268700000000000000000, none, none, none, none,
    ⟨422000000000000, 974000000000000, 2641000000000000, 3171000000000000⟩,
    ⟨42600000000000000, 118700000000000000, 192600000000000000, 200800000000000000⟩,
    ⟨363500000000000000, 71100000000000000, 25100000000000000, 22700000000000000⟩,
    ⟨43600000000000000, 0, 0, 0⟩⟩,
  /- PW306B -/ ⟨[80, 87, 51, 48, 54, 66], some 45000000000000000, some 269100000000000000000, none, none, none, none,
    ⟨422000000000000, 974000000000000, 2641000000000000, 3171000000000000⟩,
    ⟨42600000000000000, 118700000000000000, 192600000000000000, 200800000000000000⟩,
    ⟨363500000000000000, 71100000000000000, 25100000000000000, 22700000000000000⟩,
    ⟨43600000000000000, 0, 0, 0⟩⟩,
  /- PW307A -/ ⟨[80, 87, 51, 48, 55, 65], some 42000000000000000, some 284900000000000000000, none, none, none, none,
    ⟨440000000000000, 1020000000000000, 2720000000000000, 3270000000000000⟩,
    ⟨28600000000000000, 87700000000000000, 155800000000000000, 182800000000000000⟩,
    ⟨369200000000000000, 32300000000000000, 2300000000000000, 2700000000000000⟩,
    ⟨19900000000000000, 0, 0, 0⟩⟩,
  /- PW307D -/ ⟨[80, 87, 51, 48, 55, 68], some 42000000000000000, some 299100000000000000000, none, none, none, none,
    ⟨462000000000000, 1115000000000000, 2769000000000000, 3545000000000000⟩,
    ⟨43200000000000000, 78500000000000000, 154400000000000000, 206100000000000000⟩,
    ⟨267500000000000000, 25700000000000000, 200000000000000, 0⟩,
    ⟨7500000000000000, 0, 0, 0⟩⟩,
  /- PW308A -/ ⟨[80, 87, 51, 48, 56, 65], some 41000000000000000, some 307100000000000000000, none, none, none, none,
    ⟨445000000000000, 1235000000000000, 2991000000000000, 3604000000000000⟩,
    ⟨36500000000000000, 80300000000000000, 140600000000000000, 167400000000000000⟩,
    ⟨382100000000000000, 40800000000000000, 10600000000000000, 8300000000000000⟩,
    ⟨66200000000000000, 200000000000000, 0, 0⟩⟩,
  /- PW308C -/ ⟨[80, 87, 51, 48, 56, 67], some 41000000000000000, some 311500000000000000000, none, none, none, none,
    ⟨490000000000000, 1160000000000000, 3070000000000000, 3700000000000000⟩,
    ⟨35300000000000000, 68000000000000000, 149600000000000000, 191000000000000000⟩,
    ⟨370500000000000000, 41800000000000000, 5700000000000000, 5000000000000000⟩,
    ⟨3900000000000000, 0, 0, 0⟩⟩,
  /- PW4056 -/ ⟨[80, 87, 52, 48, 53, 54], some 47000000000000000, some 2491000000000000000000, none, none, none, none,
    ⟨2080000000000000, 6580000000000000, 19300000000000000, 23420000000000000⟩,
    ⟨48000000000000000, 116000000000000000, 229000000000000000, 281000000000000000⟩,
    ⟨218600000000000000, 20000000000000000, 5700000000000000, 4400000000000000⟩,
    ⟨19200000000000000, 1300000000000000, 100000000000000, 600000000000000⟩⟩,
  /- PW4074 -/ ⟨[80, 87, 52, 48, 55, 52], some 68000000000000000, some 3332000000000000000000, none, none, none, none,
    ⟨2280000000000000, 7950000000000000, 23680000000000000, 28990000000000000⟩,
    ⟨42000000000000000, 110000000000000000, 315000000000000000, 381000000000000000⟩,
    ⟨210000000000000000, 4000000000000000, 1000000000000000, 1000000000000000⟩,
    ⟨32000000000000000, 2000000000000000, 1000000000000000, 1000000000000000⟩⟩]

def engines8 : List EngineRow := [
  /- PW4074D -/ ⟨[80, 87, 52, 48, 55, 52, 68], some 67000000000000000, some 3332000000000000000000, none, none, none, none,
    ⟨2390000000000000, 8100000000000000, 24160000000000000, 29490000000000000⟩,
    ⟨38100000000000000, 118800000000000000, 344800000000000000, 423500000000000000⟩,
    ⟨343400000000000000, 6400000000000000, 2500000000000000, 2300000000000000⟩,
    ⟨50700000000000000, 800000000000000, 500000000000000, 300000000000000⟩⟩,
  /- PW4077 -/ ⟨[80, 87, 52, 48, 55, 55], some 67000000000000000, some 3430000000000000000000, none, none, none, none,
    ⟨2320000000000000, 8160000000000000, 24520000000000000, 30190000000000000⟩,
    ⟨42000000000000000, 113000000000000000, 325000000000000000, 398000000000000000⟩,
    ⟨202000000000000000, 4000000000000000, 1000000000000000, 1000000000000000⟩,
    ⟨30000000000000000, 2000000000000000, 1000000000000000, 1000000000000000⟩⟩,
  /- PW4077D -/ ⟨[80, 87, 52, 48, 55, 55, 68], some 66000000000000000, some 3557000000000000000000, none, none, none, none,
    ⟨3100000000000000, 8920000000000000, 25620000000000000, 31720000000000000⟩,
    ⟨38100000000000000, 116300000000000000, 340500000000000000, 446800000000000000⟩,
    ⟨248000000000000000, 8600000000000000, 3400000000000000, 2900000000000000⟩,
    ⟨28200000000000000, 400000000000000, 200000000000000, 200000000000000⟩⟩,
  /- PW4084 -/ ⟨[80, 87, 52, 48, 56, 52], some 64000000000000000, some 3696000000000000000000, none, none, none, none,
    ⟨2420000000000000, 8750000000000000, 26890000000000000, 34110000000000000⟩,
    ⟨44000000000000000, 120000000000000000, 355000000000000000, 450000000000000000⟩,
    ⟨187300000000000000, 4000000000000000, 1000000000000000, 1000000000000000⟩,
    ⟨27000000000000000, 2000000000000000, 1000000000000000, 1000000000000000⟩⟩,
  /- PW4084D -/ ⟨[80, 87, 52, 48, 56, 52, 68], some 62000000000000000, some 3859000000000000000000, none, none, none, none,
    ⟨3220000000000000, 9540000000000000, 28090000000000000, 35570000000000000⟩,
    ⟨39900000000000000, 122700000000000000, 377800000000000000, 513900000000000000⟩,
    ⟨211200000000000000, 6600000000000000, 3200000000000000, 2800000000000000⟩,
    ⟨21600000000000000, 400000000000000, 200000000000000, 200000000000000⟩⟩,
  /- PW4090 -/ ⟨[80, 87, 52, 48, 57, 48], some 60000000000000000, some 4083000000000000000000, none, none, none, none,
    ⟨3380000000000000, 9790000000000000, 29960000000000000, 39260000000000000⟩,
    ⟨44800000000000000, 127400000000000000, 411700000000000000, 575200000000000000⟩,
    ⟨119400000000000000, 5500000000000000, 3100000000000000, 2700000000000000⟩,
    ⟨6900000000000000, 400000000000000, 200000000000000, 200000000000000⟩⟩,
  /- PW4152 -/ ⟨[80, 87, 52, 49, 53, 50], some 49000000000000000, some 2312700000000000000000, none, none, none, none,
    ⟨2030000000000000, 6130000000000000, 17830000000000000, 21290000000000000⟩,
    ⟨48000000000000000, 111000000000000000, 211000000000000000, 253000000000000000⟩,
    ⟨236700000000000000, 22900000000000000, 6200000000000000, 5000000000000000⟩,
    ⟨22400000000000000, 1300000000000000, 100000000000000, 300000000000000⟩⟩,
  /- PW4156 -/ ⟨[80, 87, 52, 49, 53, 54], some 47000000000000000, some 2491000000000000000000, none, none, none, none,
    ⟨2080000000000000, 6580000000000000, 19300000000000000, 23420000000000000⟩,
    ⟨48000000000000000, 116000000000000000, 229000000000000000, 281000000000000000⟩,
    ⟨218600000000000000, 20000000000000000, 5700000000000000, 4400000000000000⟩,
    ⟨19200000000000000, 1300000000000000, 100000000000000, 600000000000000⟩⟩,
  /- PW4158 -/ ⟨[80, 87, 52, 49, 53, 56], some 46000000000000000, some 2580000000000000000000, none, none, none, none,
    ⟨2110000000000000, 6820000000000000, 20040000000000000, 24810000000000000⟩,
    ⟨48000000000000000, 118000000000000000, 237000000000000000, 302000000000000000⟩,
    ⟨209900000000000000, 18800000000000000, 5400000000000000, 4000000000000000⟩,
    ⟨17800000000000000, 1400000000000000, 200000000000000, 900000000000000⟩⟩,
  /- PW4164 -/ ⟨[80, 87, 52, 49, 54, 52], some 52000000000000000, some 2846800000000000000000, none, none, none, none,
    ⟨2400000000000000, 7660000000000000, 22000000000000000, 26680000000000000⟩,
    ⟨49900000000000000, 118800000000000000, 186600000000000000, 238700000000000000⟩,
    ⟨177300000000000000, 28400000000000000, 1800000000000000, 1900000000000000⟩,
    ⟨3700000000000000, 0, 0, 0⟩⟩,
  /- PW4164-1D -/ ⟨[80, 87, 52, 49, 54, 52, 45, 49, 68], some 50600000000000000, some 2869000000000000000000, none, none, none, none,
    ⟨2430000000000000, 7750000000000000, 22390000000000000, 27210000000000000⟩,
    ⟨37900000000000000, 121000000000000000, 209700000000000000, 263100000000000000⟩,
    ⟨171300000000000000, 15500000000000000, 1700000000000000, 1600000000000000⟩,
    ⟨14400000000000000, 600000000000000, 0, 0⟩⟩,
  /- PW4168 -/ ⟨[80, 87, 52, 49, 54, 56], some 51000000000000000, some 3025000000000000000000, none, none, none, none,
    ⟨2500000000000000, 8090000000000000, 23630000000000000, 28840000000000000⟩,
    ⟨52000000000000000, 121000000000000000, 202000000000000000, 269000000000000000⟩,
    ⟨159000000000000000, 24000000000000000, 2000000000000000, 1000000000000000⟩,
    ⟨2000000000000000, 0, 0, 0⟩⟩,
  /- PW4168-1D -/ ⟨[80, 87, 52, 49, 54, 56, 45, 49, 68], some 49200000000000000, some 3051000000000000000000, none, none, none, none,
    ⟨2520000000000000, 8180000000000000, 23980000000000000, 29370000000000000⟩,
    ⟨40800000000000000, 123900000000000000, 223100000000000000, 301500000000000000⟩,
    ⟨147800000000000000, 12600000000000000, 1800000000000000, 1700000000000000⟩,
    ⟨9500000000000000, 500000000000000, 0, 0⟩⟩,
  /- PW4168A -/ ⟨[80, 87, 52, 49, 54, 56, 65], some 51000000000000000, some 3025000000000000000000, none, none, none, none,
    ⟨2500000000000000, 8090000000000000, 23630000000000000, 28840000000000000⟩,
    ⟨52000000000000000, 121000000000000000, 202000000000000000, 269000000000000000⟩,
    ⟨159000000000000000, 24000000000000000, 2000000000000000, 1000000000000000⟩,
    ⟨2000000000000000, 0, 0, 0⟩⟩,
  /- PW4168A-1D -/ ⟨[80, 87, 52, 49, 54, 56, 65, 45, 49, 68], some 49200000000000000, some 3051000000000000000000, none, none, none, none,
    ⟨2520000000000000, 8180000000000000, 23980000000000000, 29370000000000000⟩,
    ⟨40800000000000000, 123900000000000000, 223100000000000000, 301500000000000000⟩,
    ⟨147800000000000000, 12600000000000000, 1800000000000000, 1700000000000000⟩,
    ⟨9500000000000000, 500000000000000, 0, 0⟩⟩,
  /- PW4060 -/ ⟨[80, 87, 52, 48, 54, 48], some 47000000000000000, some 2669000000000000000000, none, none, none, none,
    ⟨2060000000000000, 6960000000000000, 20360000000000000, 25670000000000000⟩,
    ⟨37200000000000000, 119100000000000000, 250300000000000000, 317400000000000000⟩,
    ⟨444600000000000000, 20400000000000000, 4900000000000000, 5800000000000000⟩,
    ⟨116300000000000000, 1000000000000000, 600000000000000, 800000000000000⟩⟩,
  /- PW4062 -/ ⟨[80, 87, 52, 48, 54, 50], some 46000000000000000, some 2758000000000000000000, none, none, none, none,
    ⟨2100000000000000, 7180000000000000, 21250000000000000, 27250000000000000⟩,
    ⟨37800000000000000, 121700000000000000, 259800000000000000, 343600000000000000⟩,
    ⟨426100000000000000, 19300000000000000, 5000000000000000, 6100000000000000⟩,
    ⟨108600000000000000, 900000000000000, 700000000000000, 800000000000000⟩⟩,
  /- PW4170 -/ ⟨[80, 87, 52, 49, 55, 48], some 48600000000000000, some 3114000000000000000000, none, none, none, none,
    ⟨2550000000000000, 8330000000000000, 24500000000000000, 30190000000000000⟩,
    ⟨41800000000000000, 124900000000000000, 228400000000000000, 314000000000000000⟩,
    ⟨140400000000000000, 11700000000000000, 1800000000000000, 1800000000000000⟩,
    ⟨8300000000000000, 500000000000000, 0, 0⟩⟩,
  /- PW4256 -/ ⟨[80, 87, 52, 50, 53, 54], some 47000000000000000, some 2524000000000000000000, none, none, none, none,
    ⟨1880000000000000, 6470000000000000, 19810000000000000, 24490000000000000⟩,
    ⟨50000000000000000, 116000000000000000, 246000000000000000, 325000000000000000⟩,
    ⟨116000000000000000, 9000000000000000, 1400000000000000, 800000000000000⟩,
    ⟨6600000000000000, 2500000000000000, 1700000000000000, 1100000000000000⟩⟩,
  /- PW4460 -/ ⟨[80, 87, 52, 52, 54, 48], some 45000000000000000, some 2669000000000000000000, none, none, none, none,
    ⟨2130000000000000, 7030000000000000, 20850000000000000, 26470000000000000⟩,
    ⟨49000000000000000, 120000000000000000, 247000000000000000, 328000000000000000⟩,
    ⟨203200000000000000, 17800000000000000, 5100000000000000, 3700000000000000⟩,
    ⟨16600000000000000, 1400000000000000, 300000000000000, 1000000000000000⟩⟩,
  /- PW4x50 -/ ⟨[80, 87, 52, 120, 53, 48], some 50000000000000000, some 2224000000000000000000, none, none, none, none,
    ⟨1930000000000000, 5790000000000000, 16830000000000000, 20270000000000000⟩,
    ⟨36900000000000000, 111300000000000000, 217700000000000000, 256900000000000000⟩,
    ⟨369100000000000000, 23300000000000000, 6200000000000000, 5300000000000000⟩,
    ⟨68000000000000000, 1900000000000000, 1000000000000000, 900000000000000⟩⟩,
  /- PW4x52 -/ ⟨[80, 87, 52, 120, 53, 50], some 50000000000000000, some 2313000000000000000000, none, none, none, none,
    ⟨1980000000000000, 6000000000000000, 17570000000000000, 21270000000000000⟩,
    ⟨37700000000000000, 114100000000000000, 225400000000000000, 270200000000000000⟩,
    ⟨345400000000000000, 21500000000000000, 6000000000000000, 5200000000000000⟩,
    ⟨60200000000000000, 1700000000000000, 1000000000000000, 800000000000000⟩⟩,
  /- PW4x56 -/ ⟨[80, 87, 52, 120, 53, 54], some 48000000000000000, some 2491000000000000000000, none, none, none, none,
    ⟨2080000000000000, 6430000000000000, 19120000000000000, 23510000000000000⟩,
    ⟨39300000000000000, 119700000000000000, 242400000000000000, 304400000000000000⟩,
    ⟨299600000000000000, 18900000000000000, 5600000000000000, 4800000000000000⟩,
    ⟨47500000000000000, 1600000000000000, 900000000000000, 800000000000000⟩⟩,
  /- PW4x58 -/ ⟨[80, 87, 52, 120, 53, 56], some 48000000000000000, some 2580000000000000000000, none, none, none, none,
    ⟨2130000000000000, 6650000000000000, 19930000000000000, 24820000000000000⟩,
    ⟨39900000000000000, 122500000000000000, 252200000000000000, 325100000000000000⟩,
    ⟨280800000000000000, 18200000000000000, 5300000000000000, 4400000000000000⟩,
    ⟨42900000000000000, 1500000000000000, 900000000000000, 800000000000000⟩⟩,
  /- PW4X58 -/ ⟨[80, 87, 52, 88, 53, 56], some 48000000000000000, some 2580000000000000000000, none, none, none, none,
    ⟨2120000000000000, 6630000000000000, 19990000000000000, 24960000000000000⟩,
    ⟨43000000000000000, 111000000000000000, 180000000000000000, 225000000000000000⟩,
    ⟨243000000000000000, 38000000000000000, 3000000000000000, 2000000000000000⟩,
    ⟨17000000000000000, 0, 0, 0⟩⟩,
  /- PW4x62 -/ ⟨[80, 87, 52, 120, 54, 50], some 44000000000000000, some 2758000000000000000000, none, none, none, none,
    ⟨2170000000000000, 7250000000000000, 21610000000000000, 28580000000000000⟩,
    ⟨49000000000000000, 122000000000000000, 257000000000000000, 363000000000000000⟩,
    ⟨195100000000000000, 16900000000000000, 4900000000000000, 3500000000000000⟩,
    ⟨15300000000000000, 1400000000000000, 600000000000000, 1000000000000000⟩⟩,
  /- PW6122A -/ ⟨[80, 87, 54, 49, 50, 50, 65], some 48000000000000000, some 983100000000000000000, none, none, none, none,
    ⟨1090000000000000, 3040000000000000, 8600000000000000, 10470000000000000⟩,
    ⟨30800000000000000, 59500000000000000, 134000000000000000, 170400000000000000⟩,
    ⟨246800000000000000, 39900000000000000, 7200000000000000, 7400000000000000⟩,
    ⟨60000000000000, 10000000000000, 10000000000000, 0⟩⟩,
  /- PW6124A -/ ⟨[80, 87, 54, 49, 50, 52, 65], some 48000000000000000, some 1058700000000000000000, none, none, none, none,
    ⟨1140000000000000, 3250000000000000, 9390000000000000, 11690000000000000⟩,
    ⟨35800000000000000, 68800000000000000, 158500000000000000, 210300000000000000⟩,
    ⟨251900000000000000, 36900000000000000, 8100000000000000, 6800000000000000⟩,
    ⟨20000000000000, 10000000000000, 20000000000000, 0⟩⟩,
  /- RB211-22B -/ ⟨[82, 66, 50, 49, 49, 45, 50, 50, 66], some 47000000000000000, some 1825000000000000000000, none, none, none, none,
    ⟨2250000000000000, 5660000000000000, 15460000000000000, 18770000000000000⟩,
    ⟨28600000000000000, 81800000000000000, 268900000000000000, 373300000000000000⟩,
    ⟨889900000000000000, 206500000000000000, 16800000000000000, 7800000000000000⟩,
    ⟨677500000000000000, 59600000000000000, 2500000000000000, 1500000000000000⟩⟩,
  /- RB211-524B -/ ⟨[82, 66, 50, 49, 49, 45, 53, 50, 52, 66], some 45000000000000000, some 2185000000000000000000, none, none, none, none,
    ⟨2400000000000000, 6300000000000000, 17900000000000000, 22100000000000000⟩,
    ⟨42000000000000000, 98000000000000000, 382000000000000000, 523000000000000000⟩,
    ⟨123900000000000000, 15600000000000000, 3300000000000000, 7000000000000000⟩,
    ⟨19500000000000000, 7000000000000000, 2600000000000000, 3900000000000000⟩⟩,
  /- RB211-524C2 -/ ⟨[82, 66, 50, 49, 49, 45, 53, 50, 52, 67, 50], some 45000000000000000, some 2248000000000000000000, none, none, none, none,
    ⟨3000000000000000, 7400000000000000, 20200000000000000, 24800000000000000⟩,
    ⟨33700000000000000, 104000000000000000, 323000000000000000, 419000000000000000⟩,
    ⟨810000000000000000, 189000000000000000, 16300000000000000, 6600000000000000⟩,
    ⟨542000000000000000, 44200000000000000, 2200000000000000, 0⟩⟩,
  /- RB211-524D4 -/ ⟨[82, 66, 50, 49, 49, 45, 53, 50, 52, 68, 52], some 43000000000000000, some 2313000000000000000000, none, none, none, none,
    ⟨2600000000000000, 6500000000000000, 19100000000000000, 23400000000000000⟩,
    ⟨44100000000000000, 106300000000000000, 430100000000000000, 593500000000000000⟩,
    ⟨93000000000000000, 15600000000000000, 3400000000000000, 12400000000000000⟩,
    ⟨14100000000000000, 7000000000000000, 2600000000000000, 5900000000000000⟩⟩,
  /- RB211-524G -/ ⟨[82, 66, 50, 49, 49, 45, 53, 50, 52, 71], some 42500000000000000, some 2530000000000000000000, none, none, none, none,
    ⟨2600000000000000, 7000000000000000, 20800000000000000, 26200000000000000⟩,
    ⟨46300000000000000, 95600000000000000, 405400000000000000, 587100000000000000⟩,
    ⟨137400000000000000, 10100000000000000, 4300000000000000, 5900000000000000⟩,
    ⟨8900000000000000, 3700000000000000, 2700000000000000, 3900000000000000⟩⟩,
  /- RB211-524G-T -/ ⟨[82, 66, 50, 49, 49, 45, 53, 50, 52, 71, 45, 84], some 42500000000000000, some 2530000000000000000000, none, none, none, none,
    ⟨2600000000000000, 7400000000000000, 21000000000000000, 26200000000000000⟩,
    ⟨40000000000000000, 96800000000000000, 218000000000000000, 284300000000000000⟩,
    ⟨288200000000000000, 11700000000000000, 1400000000000000, 1600000000000000⟩,
    ⟨39500000000000000, 0, 300000000000000, 0⟩⟩,
  /- RB211-524H -/ ⟨[82, 66, 50, 49, 49, 45, 53, 50, 52, 72], some 42000000000000000, some 2644000000000000000000, none, none, none, none,
    ⟨2600000000000000, 7100000000000000, 21700000000000000, 27300000000000000⟩,
    ⟨47800000000000000, 102600000000000000, 463100000000000000, 658400000000000000⟩,
    ⟨117500000000000000, 9900000000000000, 3800000000000000, 8700000000000000⟩,
    ⟨7400000000000000, 3600000000000000, 3300000000000000, 3400000000000000⟩⟩,
  /- RB211-524H-T -/ ⟨[82, 66, 50, 49, 49, 45, 53, 50, 52, 72, 45, 84], some 42000000000000000, some 2640000000000000000000, none, none, none, none,
    ⟨2600000000000000, 7700000000000000, 22200000000000000, 28100000000000000⟩,
    ⟨41600000000000000, 99100000000000000, 231900000000000000, 311900000000000000⟩,
    ⟨261700000000000000, 10500000000000000, 1400000000000000, 1800000000000000⟩,
    ⟨33100000000000000, 0, 200000000000000, 0⟩⟩,
  /- RB211-535C -/ ⟨[82, 66, 50, 49, 49, 45, 53, 51, 53, 67], some 45000000000000000, some 1633000000000000000000, none, none, none, none,
    ⟨2000000000000000, 5400000000000000, 14700000000000000, 18000000000000000⟩,
    ⟨34400000000000000, 63700000000000000, 248900000000000000, 337100000000000000⟩,
    ⟨187900000000000000, 4800000000000000, 2700000000000000, 7000000000000000⟩,
    ⟨14400000000000000, 4400000000000000, 1400000000000000, 2500000000000000⟩⟩,
  /- RB211-535E4 -/ ⟨[82, 66, 50, 49, 49, 45, 53, 51, 53, 69, 52], some 41000000000000000, some 1784000000000000000000, none, none, none, none,
    ⟨1800000000000000, 5200000000000000, 15000000000000000, 18500000000000000⟩,
    ⟨44000000000000000, 83800000000000000, 175600000000000000, 223100000000000000⟩,
    ⟨203300000000000000, 27200000000000000, 2900000000000000, 2600000000000000⟩,
    ⟨2700000000000000, 400000000000000, 0, 300000000000000⟩⟩,
  /- RB211-535E4B -/ ⟨[82, 66, 50, 49, 49, 45, 53, 51, 53, 69, 52, 66], some 41000000000000000, some 1917000000000000000000, none, none, none, none,
    ⟨1900000000000000, 5500000000000000, 16400000000000000, 20700000000000000⟩,
    ⟨45800000000000000, 86500000000000000, 193000000000000000, 258800000000000000⟩,
    ⟨182400000000000000, 24300000000000000, 2600000000000000, 3300000000000000⟩,
    ⟨1400000000000000, 500000000000000, 0, 700000000000000⟩⟩,
  /- Spey 555 -/ ⟨[83, 112, 101, 121, 32, 53, 53, 53], some 10000000000000000, some 440000000000000000000, none, none, none, none,
    ⟨964000000000000, 2210000000000000, 5930000000000000, 7350000000000000⟩,
    ⟨22300000000000000, 50500000000000000, 130600000000000000, 173300000000000000⟩,
    ⟨311600000000000000, 57800000000000000, 20800000000000000, 15400000000000000⟩,
    ⟨34100000000000000, 3300000000000000, 2200000000000000, 1500000000000000⟩⟩]

def engines9 : List EngineRow := [
  /- SPEY Mk511 -/ ⟨[83, 80, 69, 89, 32, 77, 107, 53, 49, 49], some 6400000000000000, some 507000000000000000000, none, none, none, none,
    ⟨1190000000000000, 2790000000000000, 7260000000000000, 8890000000000000⟩,
    ⟨14800000000000000, 79400000000000000, 191800000000000000, 232700000000000000⟩,
    ⟨979600000000000000, 203000000000000000, 20600000000000000, 18100000000000000⟩,
    ⟨567300000000000000, 72300000000000000, 13200000000000000, 9800000000000000⟩⟩,
  /- SPEY Mk555 -/ ⟨[83, 80, 69, 89, 32, 77, 107, 53, 53, 53], some 10000000000000000, some 440000000000000000000, none, none, none, none,
    ⟨960000000000000, 2210000000000000, 5920000000000000, 7350000000000000⟩,
    ⟨37000000000000000, 68000000000000000, 165000000000000000, 219000000000000000⟩,
    ⟨293000000000000000, 37000000000000000, 7000000000000000, 3000000000000000⟩,
    ⟨18600000000000000, 2900000000000000, 1500000000000000, 2900000000000000⟩⟩,
  /- TAY 611-8C -/ ⟨[84, 65, 89, 32, 54, 49, 49, 45, 56, 67], some 32600000000000000, some 616000000000000000000, none, none, none, none,
    ⟨1020000000000000, 2150000000000000, 6040000000000000, 7310000000000000⟩,
    ⟨25300000000000000, 53100000000000000, 154000000000000000, 193000000000000000⟩,
    ⟨244000000000000000, 28900000000000000, 9500000000000000, 5000000000000000⟩,
    ⟨14900000000000000, 6500000000000000, 500000000000000, 300000000000000⟩⟩,
  /- TAY 650 -/ ⟨[84, 65, 89, 32, 54, 53, 48], some 30000000000000000, some 672000000000000000000, none, none, none, none,
    ⟨1200000000000000, 2500000000000000, 7100000000000000, 8600000000000000⟩,
    ⟨25000000000000000, 52600000000000000, 129400000000000000, 164500000000000000⟩,
    ⟨223600000000000000, 17600000000000000, 4800000000000000, 6900000000000000⟩,
    ⟨12300000000000000, 1100000000000000, 2200000000000000, 1100000000000000⟩⟩,
  /- TAY 651 -/ ⟨[84, 65, 89, 32, 54, 53, 49], some 30000000000000000, some 685000000000000000000, none, none, none, none,
    ⟨1200000000000000, 2600000000000000, 7200000000000000, 8700000000000000⟩,
    ⟨17200000000000000, 47700000000000000, 171300000000000000, 203100000000000000⟩,
    ⟨326800000000000000, 61100000000000000, 19300000000000000, 16800000000000000⟩,
    ⟨31000000000000000, 8500000000000000, 3700000000000000, 5600000000000000⟩⟩,
  /- TAY Mk611-8 -/ ⟨[84, 65, 89, 32, 77, 107, 54, 49, 49, 45, 56], some 30000000000000000, some 616000000000000000000, none, none, none, none,
    ⟨1100000000000000, 2300000000000000, 6300000000000000, 7600000000000000⟩,
    ⟨25000000000000000, 57000000000000000, 168000000000000000, 211000000000000000⟩,
    ⟨241000000000000000, 39000000000000000, 8000000000000000, 7000000000000000⟩,
    ⟨34000000000000000, 9000000000000000, 3000000000000000, 8000000000000000⟩⟩,
  /- TAY Mk620-15 -/ ⟨[84, 65, 89, 32, 77, 107, 54, 50, 48, 45, 49, 53], some 30000000000000000, some 616000000000000000000, none, none, none, none,
    ⟨1100000000000000, 2300000000000000, 6300000000000000, 7600000000000000⟩,
    ⟨25000000000000000, 57000000000000000, 168000000000000000, 211000000000000000⟩,
    ⟨241000000000000000, 39000000000000000, 8000000000000000, 7000000000000000⟩,
    ⟨34000000000000000, 9000000000000000, 3000000000000000, 8000000000000000⟩⟩,
  /- TAY Mk650-15 -/ ⟨[84, 65, 89, 32, 77, 107, 54, 53, 48, 45, 49, 53], some 30000000000000000, some 672000000000000000000, none, none, none, none,
    ⟨1190000000000000, 2540000000000000, 7150000000000000, 8740000000000000⟩,
    ⟨17000000000000000, 45500000000000000, 164700000000000000, 198100000000000000⟩,
    ⟨337700000000000000, 65400000000000000, 20100000000000000, 17400000000000000⟩,
    ⟨32900000000000000, 8800000000000000, 4100000000000000, 3700000000000000⟩⟩,
  /- Trent 553-61 -/ ⟨[84, 114, 101, 110, 116, 32, 53, 53, 51, 45, 54, 49], some 75000000000000000, some 2519000000000000000000, none, none, none, none,
    ⟨2300000000000000, 6000000000000000, 17300000000000000, 21100000000000000⟩,
    ⟨59600000000000000, 113700000000000000, 309800000000000000, 405500000000000000⟩,
    ⟨105000000000000000, 6600000000000000, 4400000000000000, 1800000000000000⟩,
    ⟨1400000000000000, 400000000000000, 100000000000000, 200000000000000⟩⟩,
  /- Trent 556-61 -/ ⟨[84, 114, 101, 110, 116, 32, 53, 53, 54, 45, 54, 49], some 75000000000000000, some 2639000000000000000000, none, none, none, none,
    ⟨2300000000000000, 6200000000000000, 18300000000000000, 22400000000000000⟩,
    ⟨60900000000000000, 116800000000000000, 332500000000000000, 447700000000000000⟩,
    ⟨99600000000000000, 5400000000000000, 3800000000000000, 1700000000000000⟩,
    ⟨1300000000000000, 400000000000000, 100000000000000, 200000000000000⟩⟩,
  /- Trent 768 -/ ⟨[84, 114, 101, 110, 116, 32, 55, 54, 56], some 51500000000000000, some 3042000000000000000000, none, none, none, none,
    ⟨2590000000000000, 7810000000000000, 23750000000000000, 29070000000000000⟩,
    ⟨44600000000000000, 101200000000000000, 249000000000000000, 320100000000000000⟩,
    ⟨269400000000000000, 17100000000000000, 4900000000000000, 3500000000000000⟩,
    ⟨31900000000000000, 400000000000000, 100000000000000, 0⟩⟩,
  /- Trent 772 -/ ⟨[84, 114, 101, 110, 116, 32, 55, 55, 50], some 50300000000000000, some 3203000000000000000000, none, none, none, none,
    ⟨2700000000000000, 8210000000000000, 25300000000000000, 31390000000000000⟩,
    ⟨46600000000000000, 104200000000000000, 268200000000000000, 355600000000000000⟩,
    ⟨239700000000000000, 15600000000000000, 4900000000000000, 2100000000000000⟩,
    ⟨24600000000000000, 400000000000000, 100000000000000, 100000000000000⟩⟩,
  /- Trent 875 -/ ⟨[84, 114, 101, 110, 116, 32, 56, 55, 53], some 60800000000000000, some 3518500000000000000000, none, none, none, none,
    ⟨2800000000000000, 8800000000000000, 25700000000000000, 31000000000000000⟩,
    ⟨46400000000000000, 104300000000000000, 265500000000000000, 333200000000000000⟩,
    ⟨196600000000000000, 8600000000000000, 1600000000000000, 1900000000000000⟩,
    ⟨17800000000000000, 0, 0, 0⟩⟩,
  /- Trent 877 -/ ⟨[84, 114, 101, 110, 116, 32, 56, 55, 55], some 60200000000000000, some 3616400000000000000000, none, none, none, none,
    ⟨2800000000000000, 9000000000000000, 26600000000000000, 32100000000000000⟩,
    ⟨47500000000000000, 105900000000000000, 275900000000000000, 347600000000000000⟩,
    ⟨184200000000000000, 8000000000000000, 1600000000000000, 2000000000000000⟩,
    ⟨15500000000000000, 0, 0, 0⟩⟩,
  /- Trent 884 -/ ⟨[84, 114, 101, 110, 116, 32, 56, 56, 52], some 58700000000000000, some 3901000000000000000000, none, none, none, none,
    ⟨3100000000000000, 9700000000000000, 28900000000000000, 35600000000000000⟩,
    ⟨50400000000000000, 110700000000000000, 306300000000000000, 400500000000000000⟩,
    ⟨151900000000000000, 6500000000000000, 1800000000000000, 2400000000000000⟩,
    ⟨10000000000000000, 0, 0, 0⟩⟩,
  /- Trent 892 -/ ⟨[84, 114, 101, 110, 116, 32, 56, 57, 50], some 57000000000000000, some 4114800000000000000000, none, none, none, none,
    ⟨3000000000000000, 10000000000000000, 31000000000000000, 39100000000000000⟩,
    ⟨53300000000000000, 115800000000000000, 333000000000000000, 457000000000000000⟩,
    ⟨130700000000000000, 5700000000000000, 2000000000000000, 2800000000000000⟩,
    ⟨7000000000000000, 0, 0, 100000000000000⟩⟩,
  /- Trent 895 -/ ⟨[84, 114, 101, 110, 116, 32, 56, 57, 53], some 57000000000000000, some 4130500000000000000000, none, none, none, none,
    ⟨3300000000000000, 10500000000000000, 31900000000000000, 40300000000000000⟩,
    ⟨51100000000000000, 113900000000000000, 342900000000000000, 477900000000000000⟩,
    ⟨147100000000000000, 5400000000000000, 1900000000000000, 2700000000000000⟩,
    ⟨8900000000000000, 0, 0, 200000000000000⟩⟩,
  /- Trent 970-84 -/ ⟨[84, 114, 101, 110, 116, 32, 57, 55, 48, 45, 56, 52], some 84500000000000000, some 3387000000000000000000, none, none, none, none,
    ⟨2550000000000000, 7200000000000000, 21570000000000000, 26050000000000000⟩,
    ⟨54400000000000000, 120900000000000000, 294200000000000000, 382900000000000000⟩,
    ⟨133800000000000000, 11600000000000000, 3100000000000000, 3200000000000000⟩,
    ⟨400000000000000, 800000000000000, 1200000000000000, 200000000000000⟩⟩,
  /- Trent 970B-84 -/ ⟨[84, 114, 101, 110, 116, 32, 57, 55, 48, 66, 45, 56, 52], some 83800000000000000, some 3529000000000000000000, none, none, none, none,
    ⟨2610000000000000, 7490000000000000, 22620000000000000, 27380000000000000⟩,
    ⟨55700000000000000, 123700000000000000, 313000000000000000, 413400000000000000⟩,
    ⟨126500000000000000, 10500000000000000, 3100000000000000, 3300000000000000⟩,
    ⟨400000000000000, 700000000000000, 900000000000000, 0⟩⟩,
  /- Trent 972-84 -/ ⟨[84, 114, 101, 110, 116, 32, 57, 55, 50, 45, 56, 52], some 84100000000000000, some 3459000000000000000000, none, none, none, none,
    ⟨2580000000000000, 7350000000000000, 22100000000000000, 26720000000000000⟩,
    ⟨55100000000000000, 122300000000000000, 303600000000000000, 397800000000000000⟩,
    ⟨130000000000000000, 11000000000000000, 3100000000000000, 3200000000000000⟩,
    ⟨400000000000000, 700000000000000, 1100000000000000, 100000000000000⟩⟩,
  /- Trent 972E-84 -/ ⟨[84, 114, 101, 110, 116, 32, 57, 55, 50, 69, 45, 56, 52], some 84100000000000000, some 3459000000000000000000, none, none, none, none,
    ⟨2580000000000000, 7350000000000000, 22100000000000000, 26720000000000000⟩,
    ⟨55100000000000000, 122300000000000000, 303600000000000000, 397800000000000000⟩,
    ⟨130000000000000000, 11000000000000000, 3100000000000000, 3200000000000000⟩,
    ⟨400000000000000, 700000000000000, 1100000000000000, 100000000000000⟩⟩,
  /- Trent 1000-A2 -/ ⟨[84, 114, 101, 110, 116, 32, 49, 48, 48, 48, 45, 65, 50], some 93200000000000000, some 3109000000000000000000, none, none, none, none,
    ⟨2450000000000000, 6240000000000000, 18820000000000000, 22840000000000000⟩,
    ⟨54800000000000000, 131100000000000000, 354800000000000000, 461100000000000000⟩,
    ⟨84000000000000000, 7700000000000000, 4500000000000000, 5100000000000000⟩,
    ⟨400000000000000, 0, 0, 0⟩⟩,
  /- Trent 1000-C2 -/ ⟨[84, 114, 101, 110, 116, 32, 49, 48, 48, 48, 45, 67, 50], some 91600000000000000, some 3347000000000000000000, none, none, none, none,
    ⟨2470000000000000, 6660000000000000, 20530000000000000, 25030000000000000⟩,
    ⟨57400000000000000, 136700000000000000, 398600000000000000, 526500000000000000⟩,
    ⟨73700000000000000, 6700000000000000, 4800000000000000, 5000000000000000⟩,
    ⟨300000000000000, 0, 0, 0⟩⟩,
  /- Trent 1000-D2 -/ ⟨[84, 114, 101, 110, 116, 32, 49, 48, 48, 48, 45, 68, 50], some 91600000000000000, some 3347000000000000000000, none, none, none, none,
    ⟨2470000000000000, 6660000000000000, 20530000000000000, 25030000000000000⟩,
    ⟨57400000000000000, 136700000000000000, 398600000000000000, 526500000000000000⟩,
    ⟨73700000000000000, 6700000000000000, 4800000000000000, 5000000000000000⟩,
    ⟨300000000000000, 0, 0, 0⟩⟩,
  /- Trent 1000-E2 -/ ⟨[84, 114, 101, 110, 116, 32, 49, 48, 48, 48, 45, 69, 50], some 96200000000000000, some 2680000000000000000000, none, none, none, none,
    ⟨2230000000000000, 5490000000000000, 15820000000000000, 19120000000000000⟩,
    ⟨49800000000000000, 121200000000000000, 285200000000000000, 362500000000000000⟩,
    ⟨113500000000000000, 10100000000000000, 4200000000000000, 4600000000000000⟩,
    ⟨1000000000000000, 0, 0, 0⟩⟩,
  /- Trent 1000-G2 -/ ⟨[84, 114, 101, 110, 116, 32, 49, 48, 48, 48, 45, 71, 50], some 92300000000000000, some 3237000000000000000000, none, none, none, none,
    ⟨2430000000000000, 6470000000000000, 19730000000000000, 24020000000000000⟩,
    ⟨56200000000000000, 134100000000000000, 378000000000000000, 495700000000000000⟩,
    ⟨78100000000000000, 7200000000000000, 4600000000000000, 5100000000000000⟩,
    ⟨400000000000000, 0, 0, 0⟩⟩,
  /- Trent 1000-H2 -/ ⟨[84, 114, 101, 110, 116, 32, 49, 48, 48, 48, 45, 72, 50], some 94900000000000000, some 2871000000000000000000, none, none, none, none,
    ⟨2330000000000000, 5820000000000000, 17150000000000000, 20750000000000000⟩,
    ⟨52100000000000000, 125600000000000000, 314900000000000000, 404600000000000000⟩,
    ⟨98200000000000000, 8900000000000000, 4300000000000000, 4800000000000000⟩,
    ⟨700000000000000, 0, 0, 0⟩⟩,
  /- Trent 1000-J2 -/ ⟨[84, 114, 101, 110, 116, 32, 49, 48, 48, 48, 45, 74, 50], some 90400000000000000, some 3509000000000000000000, none, none, none, none,
    ⟨2540000000000000, 6960000000000000, 21730000000000000, 26630000000000000⟩,
    ⟨59100000000000000, 140600000000000000, 430700000000000000, 580400000000000000⟩,
    ⟨68000000000000000, 6200000000000000, 4900000000000000, 4300000000000000⟩,
    ⟨200000000000000, 0, 0, 0⟩⟩,
  /- Trent 1000-K2 -/ ⟨[84, 114, 101, 110, 116, 32, 49, 48, 48, 48, 45, 75, 50], some 90400000000000000, some 3509000000000000000000, none, none, none, none,
    ⟨2540000000000000, 6960000000000000, 21730000000000000, 26630000000000000⟩,
    ⟨59100000000000000, 140600000000000000, 430700000000000000, 580400000000000000⟩,
    ⟨68000000000000000, 6200000000000000, 4900000000000000, 4300000000000000⟩,
    ⟨200000000000000, 0, 0, 0⟩⟩,
  /- Trent 1000-L2 -/ ⟨[84, 114, 101, 110, 116, 32, 49, 48, 48, 48, 45, 76, 50], some 91600000000000000, some 3347000000000000000000, none, none, none, none,
    ⟨2470000000000000, 6660000000000000, 20530000000000000, 25030000000000000⟩,
    ⟨57400000000000000, 136700000000000000, 398600000000000000, 526500000000000000⟩,
    ⟨73700000000000000, 6700000000000000, 4800000000000000, 5000000000000000⟩,
    ⟨300000000000000, 0, 0, 0⟩⟩,
  /- Trent 1000-AE3 -/ ⟨[84, 114, 101, 110, 116, 32, 49, 48, 48, 48, 45, 65, 69, 51], some 92000000000000000, some 3109000000000000000000, none, none, none, none,
    ⟨2390000000000000, 6230000000000000, 18740000000000000, 22790000000000000⟩,
    ⟨59000000000000000, 135000000000000000, 359000000000000000, 461000000000000000⟩,
    ⟨69300000000000000, 7600000000000000, 4400000000000000, 4300000000000000⟩,
    ⟨0, 0, 0, 0⟩⟩,
  /- Trent 1000-CE3 -/ ⟨[84, 114, 101, 110, 116, 32, 49, 48, 48, 48, 45, 67, 69, 51], some 90000000000000000, some 3347000000000000000000, none, none, none, none,
    ⟨2490000000000000, 6670000000000000, 20460000000000000, 24970000000000000⟩,
    ⟨61600000000000000, 140800000000000000, 401100000000000000, 520700000000000000⟩,
    ⟨62300000000000000, 6500000000000000, 4500000000000000, 4100000000000000⟩,
    ⟨0, 0, 0, 0⟩⟩,
  /- Trent 1000-D3 -/ ⟨[84, 114, 101, 110, 116, 32, 49, 48, 48, 48, 45, 68, 51], some 90000000000000000, some 3347000000000000000000, none, none, none, none,
    ⟨2490000000000000, 6670000000000000, 20460000000000000, 24970000000000000⟩,
    ⟨61600000000000000, 140800000000000000, 401100000000000000, 520700000000000000⟩,
    ⟨62300000000000000, 6500000000000000, 4500000000000000, 4100000000000000⟩,
    ⟨0, 0, 0, 0⟩⟩,
  /- Trent 1000-G3 -/ ⟨[84, 114, 101, 110, 116, 32, 49, 48, 48, 48, 45, 71, 51], some 91000000000000000, some 3237000000000000000000, none, none, none, none,
    ⟨2450000000000000, 6470000000000000, 19660000000000000, 23950000000000000⟩,
    ⟨60400000000000000, 138100000000000000, 381400000000000000, 492500000000000000⟩,
    ⟨65400000000000000, 7000000000000000, 4500000000000000, 4200000000000000⟩,
    ⟨0, 0, 0, 0⟩⟩,
  /- Trent 1000-H3 -/ ⟨[84, 114, 101, 110, 116, 32, 49, 48, 48, 48, 45, 72, 51], some 93000000000000000, some 2871000000000000000000, none, none, none, none,
    ⟨2290000000000000, 5790000000000000, 17060000000000000, 20680000000000000⟩,
    ⟨56400000000000000, 129400000000000000, 320400000000000000, 406700000000000000⟩,
    ⟨77800000000000000, 8900000000000000, 4300000000000000, 4500000000000000⟩,
    ⟨0, 0, 0, 0⟩⟩,
  /- Trent 1000-J3 -/ ⟨[84, 114, 101, 110, 116, 32, 49, 48, 48, 48, 45, 74, 51], some 89000000000000000, some 3509000000000000000000, none, none, none, none,
    ⟨2560000000000000, 6990000000000000, 21680000000000000, 26490000000000000⟩,
    ⟨63400000000000000, 144900000000000000, 432100000000000000, 563500000000000000⟩,
    ⟨58000000000000000, 5800000000000000, 4400000000000000, 3500000000000000⟩,
    ⟨0, 0, 0, 0⟩⟩,
  /- Trent 1000-K3 -/ ⟨[84, 114, 101, 110, 116, 32, 49, 48, 48, 48, 45, 75, 51], some 89000000000000000, some 3509000000000000000000, none, none, none, none,
    ⟨2560000000000000, 6990000000000000, 21680000000000000, 26490000000000000⟩,
    ⟨63400000000000000, 144900000000000000, 432100000000000000, 563500000000000000⟩,
    ⟨58000000000000000, 5800000000000000, 4400000000000000, 3500000000000000⟩,
    ⟨0, 0, 0, 0⟩⟩,
  /- Trent 1000-L3 -/ ⟨[84, 114, 101, 110, 116, 32, 49, 48, 48, 48, 45, 76, 51], some 90000000000000000, some 3347000000000000000000, none, none, none, none,
    ⟨2490000000000000, 6670000000000000, 20460000000000000, 24970000000000000⟩,
    ⟨61600000000000000, 140800000000000000, 401100000000000000, 520700000000000000⟩,
    ⟨62300000000000000, 6500000000000000, 4500000000000000, 4100000000000000⟩,
    ⟨0, 0, 0, 0⟩⟩,
  /- Trent 1000-M3 -/ ⟨[84, 114, 101, 110, 116, 32, 49, 48, 48, 48, 45, 77, 51], some 89000000000000000, some 3581000000000000000000, none, none, none, none,
    ⟨2600000000000000, 7120000000000000, 22220000000000000, 27210000000000000⟩,
    ⟨66100000000000000, 147200000000000000, 445500000000000000, 593000000000000000⟩,
    ⟨61300000000000000, 5900000000000000, 4400000000000000, 4300000000000000⟩,
    ⟨0, 0, 0, 0⟩⟩,
  /- Trent 1000-N3 -/ ⟨[84, 114, 101, 110, 116, 32, 49, 48, 48, 48, 45, 78, 51], some 89000000000000000, some 3581000000000000000000, none, none, none, none,
    ⟨2600000000000000, 7120000000000000, 22220000000000000, 27210000000000000⟩,
    ⟨66100000000000000, 147200000000000000, 445500000000000000, 593000000000000000⟩,
    ⟨61300000000000000, 5900000000000000, 4400000000000000, 4300000000000000⟩,
    ⟨0, 0, 0, 0⟩⟩]

def engines10 : List EngineRow := [
  /- Trent 1000-P3 -/ ⟨[84, 114, 101, 110, 116, 32, 49, 48, 48, 48, 45, 80, 51], some 90000000000000000, some 3347000000000000000000, none, none, none, none,
    ⟨2490000000000000, 6670000000000000, 20460000000000000, 24970000000000000⟩,
    ⟨61600000000000000, 140800000000000000, 401100000000000000, 520700000000000000⟩,
    ⟨62300000000000000, 6500000000000000, 4500000000000000, 4100000000000000⟩,
    ⟨0, 0, 0, 0⟩⟩,
  /- Trent 1000-Q3 -/ ⟨[84, 114, 101, 110, 116, 32, 49, 48, 48, 48, 45, 81, 51], some 89000000000000000, some 3509000000000000000000, none, none, none, none,
    ⟨2560000000000000, 6990000000000000, 21680000000000000, 26490000000000000⟩,
    ⟨63400000000000000, 144900000000000000, 432100000000000000, 563500000000000000⟩,
    ⟨58000000000000000, 5800000000000000, 4400000000000000, 3500000000000000⟩,
    ⟨0, 0, 0, 0⟩⟩,
  /- Trent 1000-R3 -/ ⟨[84, 114, 101, 110, 116, 32, 49, 48, 48, 48, 45, 82, 51], some 89000000000000000, some 3639000000000000000000, none, none, none, none,
    ⟨2620000000000000, 7230000000000000, 22660000000000000, 27830000000000000⟩,
    ⟨66700000000000000, 148700000000000000, 457600000000000000, 616200000000000000⟩,
    ⟨59900000000000000, 5700000000000000, 4300000000000000, 4500000000000000⟩,
    ⟨0, 0, 0, 0⟩⟩,
  /- Trent7000-72 -/ ⟨[84, 114, 101, 110, 116, 55, 48, 48, 48, 45, 55, 50], some 90000000000000000, some 3279000000000000000000, none, none, none, none,
    ⟨2410000000000000, 6700000000000000, 20290000000000000, 24780000000000000⟩,
    ⟨61000000000000000, 141200000000000000, 420400000000000000, 568000000000000000⟩,
    ⟨64500000000000000, 6300000000000000, 4500000000000000, 4100000000000000⟩,
    ⟨0, 0, 0, 0⟩⟩,
  /- Trent7000-72C -/ ⟨[84, 114, 101, 110, 116, 55, 48, 48, 48, 45, 55, 50, 67], some 90000000000000000, some 3279000000000000000000, none, none, none, none,
    ⟨2410000000000000, 6700000000000000, 20290000000000000, 24780000000000000⟩,
    ⟨61000000000000000, 141200000000000000, 420400000000000000, 568000000000000000⟩,
    ⟨64500000000000000, 6300000000000000, 4500000000000000, 4100000000000000⟩,
    ⟨0, 0, 0, 0⟩⟩,
  /- Trent XWB-75 -/ ⟨[84, 114, 101, 110, 116, 32, 88, 87, 66, 45, 55, 53], some 93000000000000000, some 3340000000000000000000, none, none, none, none,
    ⟨2700000000000000, 7150000000000000, 19800000000000000, 24110000000000000⟩,
    ⟨40600000000000000, 101300000000000000, 282900000000000000, 362300000000000000⟩,
    ⟨252600000000000000, 15600000000000000, 4100000000000000, 3900000000000000⟩,
    ⟨14200000000000000, 100000000000000, 0, 0⟩⟩,
  /- Trent XWB-79B -/ ⟨[84, 114, 101, 110, 116, 32, 88, 87, 66, 45, 55, 57, 66], some 91500000000000000, some 3552000000000000000000, none, none, none, none,
    ⟨2800000000000000, 7550000000000000, 21290000000000000, 26010000000000000⟩,
    ⟨42300000000000000, 105900000000000000, 308800000000000000, 402000000000000000⟩,
    ⟨233700000000000000, 13600000000000000, 4000000000000000, 3900000000000000⟩,
    ⟨12200000000000000, 100000000000000, 0, 0⟩⟩,
  /- Trent XWB-79 -/ ⟨[84, 114, 101, 110, 116, 32, 88, 87, 66, 45, 55, 57], some 91500000000000000, some 3552000000000000000000, none, none, none, none,
    ⟨2800000000000000, 7550000000000000, 21290000000000000, 26010000000000000⟩,
    ⟨42300000000000000, 105900000000000000, 308800000000000000, 402000000000000000⟩,
    ⟨233700000000000000, 13600000000000000, 4000000000000000, 3900000000000000⟩,
    ⟨12200000000000000, 100000000000000, 0, 0⟩⟩,
  /- Trent XWB-84 -/ ⟨[84, 114, 101, 110, 116, 32, 88, 87, 66, 45, 56, 52], some 90100000000000000, some 3790000000000000000000, none, none, none, none,
    ⟨2910000000000000, 8010000000000000, 23060000000000000, 28190000000000000⟩,
    ⟨44100000000000000, 111200000000000000, 342000000000000000, 452400000000000000⟩,
    ⟨214600000000000000, 11800000000000000, 3900000000000000, 3900000000000000⟩,
    ⟨10300000000000000, 100000000000000, 0, 0⟩⟩,
  /- Trent XWB-97 -/ ⟨[84, 114, 101, 110, 116, 32, 88, 87, 66, 45, 57, 55], some 80590000000000000, some 4367480000000000000000, none, none, none, none,
    ⟨3008381465017589, 9180765974175208, 27980472648099430, 34978265142580667⟩,
    ⟨56411264380506290, 148586840914909960, 485051681110626000, 660503222388811400⟩,
    ⟨77463381163959930, 8188114669397981, 3994335979927153, 3559904604116914⟩,
    ⟨100603234724198, 0, 0, 0⟩⟩,
  /- ALF 502L-2 -/ ⟨[65, 76, 70, 32, 53, 48, 50, 76, 45, 50], some 51000000000000000, some 334000000000000000000, none, none, none, none,
    ⟨477000000000000, 1172000000000000, 3236000000000000, 3999000000000000⟩,
    ⟨33800000000000000, 64700000000000000, 120300000000000000, 134300000000000000⟩,
    ⟨456300000000000000, 39700000000000000, 3000000000000000, 4000000000000000⟩,
    ⟨66500000000000000, 1830000000000000, 230000000000000, 200000000000000⟩⟩,
  /- ALF 502R-3 -/ ⟨[65, 76, 70, 32, 53, 48, 50, 82, 45, 51], some 57000000000000000, some 298000000000000000000, none, none, none, none,
    ⟨432000000000000, 1027000000000000, 2880000000000000, 3476000000000000⟩,
    ⟨33000000000000000, 61500000000000000, 99400000000000000, 112000000000000000⟩,
    ⟨446700000000000000, 84300000000000000, 5000000000000000, 4330000000000000⟩,
    ⟨65100000000000000, 2870000000000000, 530000000000000, 560000000000000⟩⟩,
  /- ALF 502R-5 -/ ⟨[65, 76, 70, 32, 53, 48, 50, 82, 45, 53], some 56000000000000000, some 310000000000000000000, none, none, none, none,
    ⟨408000000000000, 1034000000000000, 2955000000000000, 3581000000000000⟩,
    ⟨37800000000000000, 66000000000000000, 105600000000000000, 133500000000000000⟩,
    ⟨409300000000000000, 71000000000000000, 2500000000000000, 3000000000000000⟩,
    ⟨53900000000000000, 2170000000000000, 530000000000000, 600000000000000⟩⟩,
  /- LF507-1F, -1H -/ ⟨[76, 70, 53, 48, 55, 45, 49, 70, 44, 32, 45, 49, 72], some 51000000000000000, some 310000000000000000000, none, none, none, none,
    ⟨453000000000000, 1083000000000000, 2961000000000000, 3578000000000000⟩,
    ⟨32800000000000000, 63900000000000000, 120200000000000000, 145200000000000000⟩,
    ⟨378300000000000000, 44300000000000000, 3000000000000000, 2000000000000000⟩,
    ⟨47200000000000000, 1200000000000000, 100000000000000, 100000000000000⟩⟩,
  /- D-36 ser. 4A -/ ⟨[68, 45, 51, 54, 32, 115, 101, 114, 46, 32, 52, 65], some 50000000000000000, some 637700000000000000000, none, none, none, none,
    ⟨920000000000000, 2110000000000000, 5330000000000000, 6340000000000000⟩,
    ⟨55000000000000000, 90000000000000000, 220000000000000000, 260000000000000000⟩,
    ⟨207000000000000000, 27000000000000000, 4000000000000000, 5000000000000000⟩,
    ⟨54000000000000000, 0, 0, 0⟩⟩,
  /- D-436-148 F1 -/ ⟨[68, 45, 52, 51, 54, 45, 49, 52, 56, 32, 70, 49], some 49000000000000000, some 644300000000000000000, none, none, none, none,
    ⟨930000000000000, 2180000000000000, 4680000000000000, 5480000000000000⟩,
    ⟨36400000000000000, 72600000000000000, 160000000000000000, 189300000000000000⟩,
    ⟨234600000000000000, 29900000000000000, 5400000000000000, 5400000000000000⟩,
    ⟨22600000000000000, 700000000000000, 400000000000000, 1000000000000000⟩⟩,
  /- D-436-148 F2 -/ ⟨[68, 45, 52, 51, 54, 45, 49, 52, 56, 32, 70, 50], some 49000000000000000, some 687200000000000000000, none, none, none, none,
    ⟨990000000000000, 2250000000000000, 4930000000000000, 5810000000000000⟩,
    ⟨37800000000000000, 73100000000000000, 166400000000000000, 197600000000000000⟩,
    ⟨195600000000000000, 27100000000000000, 4000000000000000, 4800000000000000⟩,
    ⟨13900000000000000, 800000000000000, 500000000000000, 900000000000000⟩⟩,
  /- AS901-1-1A -/ ⟨[65, 83, 57, 48, 49, 45, 49, 45, 49, 65], some 42000000000000000, some 306000000000000000000, none, none, none, none,
    ⟨480000000000000, 1040000000000000, 2880000000000000, 3470000000000000⟩,
    ⟨42000000000000000, 93900000000000000, 215100000000000000, 262900000000000000⟩,
    ⟨302100000000000000, 29800000000000000, 5600000000000000, 6900000000000000⟩,
    ⟨43000000000000000, 800000000000000, 100000000000000, 100000000000000⟩⟩,
  /- AS907-2-1G -/ ⟨[65, 83, 57, 48, 55, 45, 50, 45, 49, 71], some 42000000000000000, some 328600000000000000, none, none, none, none,
    ⟨490000000000000, 1070000000000000, 3080000000000000, 3720000000000000⟩,
    ⟨39650000000000000, 89600000000000000, 164400000000000000, 184300000000000000⟩,
    ⟨304800000000000000, 60700000000000000, 6000000000000000, 5700000000000000⟩,
    ⟨9900000000000000, 1200000000000000, 600000000000000, 500000000000000⟩⟩,
  /- AS907-3-1E-A3 -/ ⟨[65, 83, 57, 48, 55, 45, 51, 45, 49, 69, 45, 65, 51], some 42000000000000000, some 338300000000000000, none, none, none, none,
    ⟨500000000000000, 1080000000000000, 3120000000000000, 3780000000000000⟩,
    ⟨40400000000000000, 92300000000000000, 168800000000000000, 190600000000000000⟩,
    ⟨280800000000000000, 57000000000000000, 5700000000000000, 5600000000000000⟩,
    ⟨8400000000000000, 1200000000000000, 600000000000000, 500000000000000⟩⟩,
  /- TPE331-6-252B -/ ⟨[84, 80, 69, 51, 51, 49, 45, 54, 45, 50, 53, 50, 66], none, none, none, none, none, none,
    ⟨148000000000000, 292000000000000, 504000000000000, 567000000000000⟩,
    ⟨49000000000000000, 73000000000000000, 88000000000000000, 103000000000000000⟩,
    ⟨560000000000000000, 190000000000000000, 20000000000000000, 20000000000000000⟩,
    ⟨453000000000000000, 93000000000000000, 62000000000000000, 82000000000000000⟩⟩,
  /- PT6A-60A -/ ⟨[80, 84, 54, 65, 45, 54, 48, 65], none, none, none, none, none, none,
    ⟨138000000000000, 390000000000000, 680000000000000, 750000000000000⟩,
    ⟨20300000000000000, 44000000000000000, 60000000000000000, 65000000000000000⟩,
    ⟨1540000000000000000, 190000000000000000, 50000000000000000, 40000000000000000⟩,
    ⟨257000000000000000, 5000000000000000, 0, 0⟩⟩,
  /- PT6A-114 -/ ⟨[80, 84, 54, 65, 45, 49, 49, 52], none, none, none, none, none, none,
    ⟨90000000000000, 250000000000000, 449000000000000, 504000000000000⟩,
    ⟨27500000000000000, 53000000000000000, 70000000000000000, 73000000000000000⟩,
    ⟨510000000000000000, 50000000000000000, 10000000000000000, 10000000000000000⟩,
    ⟨39000000000000000, 3000000000000000, 0, 0⟩⟩,
  /- PT6A-67 -/ ⟨[80, 84, 54, 65, 45, 54, 55], none, none, none, none, none, none,
    ⟨164000000000000, 450000000000000, 790000000000000, 870000000000000⟩,
    ⟨21600000000000000, 47000000000000000, 67000000000000000, 71000000000000000⟩,
    ⟨1310000000000000000, 130000000000000000, 30000000000000000, 20000000000000000⟩,
    ⟨138000000000000000, 1000000000000000, 0, 0⟩⟩,
  /- PT6A-66 -/ ⟨[80, 84, 54, 65, 45, 54, 54], none, none, none, none, none, none,
    ⟨151000000000000, 380000000000000, 650000000000000, 710000000000000⟩,
    ⟨17000000000000000, 41000000000000000, 59000000000000000, 62000000000000000⟩,
    ⟨2160000000000000000, 280000000000000000, 90000000000000000, 80000000000000000⟩,
    ⟨828000000000000000, 57000000000000000, 7000000000000000, 4000000000000000⟩⟩,
  /- TIO-540-J2B2 -/ ⟨[84, 73, 79, 45, 53, 52, 48, 45, 74, 50, 66, 50], none, none, none, none, none, none,
    ⟨32000000000000, 125000000000000, 258000000000000, 327000000000000⟩,
    ⟨3900000000000000, 13900000000000000, 2400000000000000, 3600000000000000⟩,
    ⟨12937000000000000000, 12616000000000000000, 14709000000000000000, 14421000000000000000⟩,
    ⟨680800000000000000, 133800000000000000, 166300000000000000, 123600000000000000⟩⟩]

/-- All 426 rows, in file order. -/
def engines : List EngineRow := engines0 ++ engines1 ++ engines2 ++ engines3 ++ engines4 ++ engines5 ++ engines6 ++ engines7 ++ engines8 ++ engines9 ++ engines10

end Verif.Data
