import Verif.Model.GenFloat
import Verif.Model.Kinematic

/-!
# What precedes the loops of the trajectory generator, over any arithmetic

`gen.py:89-160`, `252-322` and `415-454` with `random` false, for an arbitrary carrier, so that they can
be run in floating point. At the reals they are the setups of `Model/Gen.lean` (`climbParams_np`,
`descentParams_np`, `cruiseParams_np` in `Lemmas/GenFloatSetup.lean`). `num` is what pandas reads for an
entry of the table, `round2` is `np.round(·, -2)`. A default step of `1` and the factor `1000` are
floating-point numbers here.
-/

namespace Verif.GenLoop
open Verif.Gen Verif.Aero Verif.Kinematic Verif.Tables

/-- Keywords of `climb`, `descent` and `cruise` other than `random`. -/
structure Keys (α : Type) where
  dt : Option α := none
  casCl : Option α := none
  machCl : Option α := none
  casDe : Option α := none
  machDe : Option α := none
  rangeCr : Option α := none
  altCr : Option α := none
  machCr : Option α := none
  withcr : Option Bool := none

section
variable {α : Type} [Add α] [Sub α] [Mul α] [Div α] [Neg α] [OfScientific α] [Pow α ℕ]
variable (b : Backend α) (num : ℤ → α) (round2 : α → α)

/-- `gen.py:89-160` with `random` false. -/
def climbParams (wrap : List WrapRow) (kw : Keys α) : Except PyError (Climb α) := do
  let aTof ← getVar wrap takeoffAcceleration
  let vTof ← getVar wrap takeoffSpeed
  let wCas ← getVar wrap climbConstVcas
  let wMach ← getVar wrap climbConstMach
  let wAlt ← getVar wrap cruiseAlt
  let wPre ← getVar wrap climbVsPreConcas
  let wCon ← getVar wrap climbVsConcas
  let wCom ← getVar wrap climbVsConmach
  let wIc ← getVar wrap initclimbVs
  let wX ← getVar wrap climbCrossAltConcas
  let cas := b.maximum (kw.casCl.getD (num wCas.opt / kts)) (num vTof.opt / kts)
  let mach := kw.machCl.getD (num wMach.opt)
  let alt := round2 (kw.altCr.getD (num wAlt.opt * 1000.0 / ft))
  let vcas := cas * kts
  return ⟨kw.dt.getD 1.0, num aTof.opt, num vTof.opt, mach, vcas, alt * ft, num wIc.opt, num wPre.opt,
    num wCon.opt, num wCom.opt, num wX.opt * 1000.0, crossoverAlt b vcas mach 0.0⟩

/-- `gen.py:252-322` with `random` false. -/
def descentParams (wrap : List WrapRow) (kw : Keys α) : Except PyError (Descent α) := do
  let aLnd ← getVar wrap landingAcceleration
  let vApp ← getVar wrap finalappVcas
  let wAlt ← getVar wrap cruiseAlt
  let wMach ← getVar wrap descentConstMach
  let wCas ← getVar wrap descentConstVcas
  let wCom ← getVar wrap descentVsConmach
  let wCon ← getVar wrap descentVsConcas
  let wPost ← getVar wrap descentVsPostConcas
  let wFa ← getVar wrap finalappVs
  let wX ← getVar wrap descentCrossAltConcas
  let mach := kw.machDe.getD (num wMach.opt)
  let alt := round2 (kw.altCr.getD (num wAlt.opt * 1000.0 / ft))
  let vcas := kw.casDe.getD (num wCas.opt / kts) * kts
  return ⟨kw.dt.getD 1.0, kw.withcr.getD true, num aLnd.opt, num vApp.opt, mach, vcas, alt * ft,
    num wCom.opt, num wCon.opt, num wPost.opt, num wFa.opt, num wX.opt * 1000.0,
    crossoverAlt b vcas mach 0.0⟩

/-- `gen.py:415-454` with `random` false. -/
def cruiseParams (wrap : List WrapRow) (kw : Keys α) : Except PyError (Cruise α) := do
  let wRange ← getVar wrap cruiseRange
  let wAlt ← getVar wrap cruiseAlt
  let wMach ← getVar wrap cruiseMach
  let alt := round2 (kw.altCr.getD (num wAlt.opt * 1000.0 / ft))
  return ⟨kw.dt.getD 1.0, kw.rangeCr.getD (num wRange.opt * 1000.0), kw.machCr.getD (num wMach.opt),
    alt * ft⟩

end

/-- `np.round(x, -2)` on the machine: NumPy divides by 100, rounds to an integer (ties to even)
and multiplies by 100. -/
noncomputable def flRound2 {f : Format} {M : Machine f} (x : Fl M) : Fl M :=
  ⟨M.rnd (roundHundreds (100 * M.rnd (x.val / 100)))⟩

end Verif.GenLoop
