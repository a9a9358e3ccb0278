import Verif.Model.Tables

/-!
`/repo/openap/data/fuel/fuel_models.csv`.
Generated by `tools/gen_data.py`; do not edit.
-/

namespace Verif.Data
open Verif.Tables

def fuelModels : List FuelRow := [
  /- A318 CFM56-5B9/3 -/ ⟨[65, 51, 49, 56], [67, 70, 77, 53, 54, 45, 53, 66, 57, 47, 51], 7769784596099123, 17653772881749420, 25349134936316693⟩,
  /- A319 V2524-A5 -/ ⟨[65, 51, 49, 57], [86, 50, 53, 50, 52, 45, 65, 53], 8694169413032631, 19542690629047836, 25028187026860103⟩,
  /- A320 CFM56-5B4/P -/ ⟨[65, 51, 50, 48], [67, 70, 77, 53, 54, 45, 53, 66, 52, 47, 80], 10453208160586924, 23633720747416573, 12378127479131922⟩,
  /- A321 V2533-A5 -/ ⟨[65, 51, 50, 49], [86, 50, 53, 51, 51, 45, 65, 53], 13979999999999444, 20540284518292680, 10008941993511127⟩,
  /- A332 Trent 772 -/ ⟨[65, 51, 51, 50], [84, 114, 101, 110, 116, 32, 55, 55, 50], 28864300573402830, 10960397632560752, 23772585567580293⟩,
  /- A333 Trent 772 -/ ⟨[65, 51, 51, 51], [84, 114, 101, 110, 116, 32, 55, 55, 50], 31199999999999997, 10365152289922772, 19505994212570470⟩,
  /- B737 CFM56-7B26 -/ ⟨[66, 55, 51, 55], [67, 70, 77, 53, 54, 45, 55, 66, 50, 54], 10237419750954273, 14670109921175798, 32566140275646456⟩,
  /- B738 CFM56-7B26E -/ ⟨[66, 55, 51, 56], [67, 70, 77, 53, 54, 45, 55, 66, 50, 54, 69], 10754845189124940, 18777303165419037, 18895522140156369⟩,
  /- B739 CFM56-7B27E -/ ⟨[66, 55, 51, 57], [67, 70, 77, 53, 54, 45, 55, 66, 50, 55, 69], 13079999999999998, 15986016771932572, 12789091908108752⟩,
  /- CRJ9 CF34-8C5 -/ ⟨[67, 82, 74, 57], [67, 70, 51, 52, 45, 56, 67, 53], 6437136288905128, 19690234662778772, 14375859706162741⟩,
  /- E170 CF34-8E5 -/ ⟨[69, 49, 55, 48], [67, 70, 51, 52, 45, 56, 69, 53], 6341784688704629, 27787294284401420, 10149695061665696⟩,
  /- E190 CF34-10E5 -/ ⟨[69, 49, 57, 48], [67, 70, 51, 52, 45, 49, 48, 69, 53], 8339999999998783, 23343013671118475, 4847704716061958⟩,
  /- E195 CF34-10E5A1 -/ ⟨[69, 49, 57, 53], [67, 70, 51, 52, 45, 49, 48, 69, 53, 65, 49], 9119999999999930, 19296646996952950, 8452746256489131⟩,
  /- E75L CF34-8E5 -/ ⟨[69, 55, 53, 76], [67, 70, 51, 52, 45, 56, 69, 53], 6340709359225759, 26146532873560190, 8714282723568036⟩,
  /- default default -/ ⟨[100, 101, 102, 97, 117, 108, 116], [100, 101, 102, 97, 117, 108, 116], 9375649012469020, 19767611682280135, 13954794843472482⟩]

end Verif.Data
