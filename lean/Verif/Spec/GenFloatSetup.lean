import Verif.Spec.GenFloat
import Verif.Model.GenFloatSetup
import Verif.Model.Tables

/-!
# Setting up generated flights in floating point: terms used in the statements
-/

namespace Verif.GenLoop
open Verif.Tables

/-- The table is read into numbers of the format that are off by at most 4 units in the last place (8
unit roundoffs). pandas does not promise to read the nearest number. -/
def Reads {f : Format} (M : Machine f) (num : ℤ → Fl M) : Prop :=
  ∀ z : ℤ, |z| ≤ 10 ^ 12 →
    f.Repr (num z).val ∧ |(num z).val - wreal z| ≤ 8 * f.u * |wreal z|

end Verif.GenLoop
