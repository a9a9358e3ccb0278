import Verif.Lemmas.Appleman

/-! The fitted threshold is close to the exact one: the enclosures evaluated. -/

namespace Verif.Contrail
open Verif.Interval

theorem close_all : all close 776 = true := by decide +kernel

theorem drier_all : all drier 62 = true := by decide +kernel

theorem ends_all : (below 1 2 (iSlope (rat 219 1)) && above 1 10 (iSlope (rat 219 1)) &&
    above 8 1 (iSlope (rat 250 1))) = true := by decide +kernel

end Verif.Contrail
