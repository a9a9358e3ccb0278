import Verif.Data.Engines
import Verif.Data.Aircraft
import Verif.Data.Polars
import Verif.Data.FuelModels
import Verif.Data.Wrap
import Verif.Model.Registry

namespace Verif.Data

/-- The data shipped with openap, directories listed by name. -/
def shipped : Registry.DB where
  aircraft := aircraft
  aircraftSyn := aircraftSyn
  engines := engines
  polars := polars
  polarSyn := polarSyn
  fuel := fuelModels
  wrap := wrap
  wrapSyn := wrapSyn

end Verif.Data
