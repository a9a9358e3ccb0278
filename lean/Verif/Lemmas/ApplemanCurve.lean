import Verif.Lemmas.Appleman

/-! The saturation curve over water is convex: the enclosures evaluated. -/

namespace Verif.Contrail
open Verif.Interval

theorem curved_all : all curved 209 = true := by decide +kernel

end Verif.Contrail
