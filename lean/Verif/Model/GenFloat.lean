import Verif.Model.Gen
import Verif.Prelude.Float

/-!
# The loops of the trajectory generator over any arithmetic

The three `while` loops of `/repo/openap/gen.py` once more, now for an arbitrary carrier, backend and
order, so that they can be run in floating point. At the reals they are the loops of
`Model/Gen.lean` (`climbPass_np`, `descentPass_np`, `cruisePass_np` in `Lemmas/GenFloat.lean`). What comes
before the loops (`gen.py:89-160`, `253-326`, `415-454`) is in `Model/GenFloatSetup.lean`; here the
parameters are the numbers in memory when the loop begins. Python's integers `0`, `60`, `1500` and a step `dt` given as an
integer are floating-point numbers here.
-/

namespace Verif.GenLoop
open Verif.Gen Verif.Aero

/-- A row of `data`, `gen.py:175,336,465`, and `tcr` of `gen.py:166` (0 outside `climb`). -/
structure State (α : Type) where
  t : α
  h : α
  s : α
  v : α
  vs : α
  seg : Option Seg
  tcr : α

/-- What the loop of `climb` uses, `gen.py:89-160`. -/
structure Climb (α : Type) where
  dt : α
  aTof : α
  vTof : α
  mach : α
  vcas : α
  hCr : α
  vsIc : α
  vsPre : α
  vsCas : α
  vsMach : α
  hCas : α
  hMach : α

/-- What the loop of `descent` uses, `gen.py:253-326`. -/
structure Descent (α : Type) where
  dt : α
  withcr : Bool
  aLnd : α
  vApp : α
  mach : α
  vcas : α
  hCr : α
  vsMach : α
  vsCas : α
  vsPost : α
  vsFa : α
  hCas : α
  hMach : α

/-- What the loop of `cruise` uses, `gen.py:415-454`. -/
structure Cruise (α : Type) where
  dt : α
  distance : α
  mach : α
  hCr : α

variable {α : Type} [Add α] [Sub α] [Mul α] [Div α] [Neg α] [Pow α ℕ] [OfScientific α]
  (b : Backend α) (lt : α → α → Prop) [DecidableRel lt]

/-- `gen.py:165-172`. -/
def climbStart : State α := ⟨0.0, 0.0, 0.0, 0.0, 0.0, none, 0.0⟩

/-- `gen.py:176-211`. -/
def climbPass (P : Climb α) (x : State α) : State α × Bool :=
  let t := x.t + P.dt
  let s := x.s + x.v * P.dt
  let h := x.h + x.vs * P.dt
  if lt x.v P.vTof then
    (⟨t, h, s, x.v + P.aTof * P.dt, 0.0, some .TO, x.tcr⟩, false)
  else if lt h (1500.0 * ft) then
    let v := x.v + 0.5 * P.dt
    let v := if ¬ lt (tas2cas b v h 0.0) P.vcas then cas2tas b P.vcas h 0.0 else v
    (⟨t, h, s, v, P.vsIc, some .IC, x.tcr⟩, false)
  else if lt h P.hCas then
    let v := x.v + 0.5 * P.dt
    let v := if ¬ lt (tas2cas b v h 0.0) P.vcas then cas2tas b P.vcas h 0.0 else v
    (⟨t, h, s, v, P.vsPre, some .PRECAS, x.tcr⟩, false)
  else if lt h P.hMach then
    (⟨t, h, s, cas2tas b P.vcas h 0.0, P.vsCas, some .CAS, x.tcr⟩, false)
  else if lt h P.hCr then
    (⟨t, h, s, mach2tas b P.mach h 0.0, P.vsMach, some .MACH, x.tcr⟩, false)
  else
    let tcr := if lt x.tcr 0.0 ∨ lt 0.0 x.tcr then x.tcr else t
    (⟨t, h, s, mach2tas b P.mach h 0.0, 0.0, some .CR, tcr⟩, decide (lt 60.0 (t - tcr)))

/-- `gen.py:327-333`. -/
def descentStart (P : Descent α) : State α :=
  ⟨0.0, P.hCr, 0.0, mach2tas b P.mach P.hCr 0.0, 0.0, none, 0.0⟩

/-- `gen.py:337-370`. -/
def descentPass (P : Descent α) (x : State α) : State α × Bool :=
  let t := x.t + P.dt
  let s := x.s + x.v * P.dt
  let h := x.h + x.vs * P.dt
  if lt t 60.0 ∧ P.withcr = true then
    (⟨t, h, s, mach2tas b P.mach h 0.0, 0.0, some .CR, x.tcr⟩, false)
  else if lt P.hMach h then
    (⟨t, h, s, mach2tas b P.mach h 0.0, P.vsMach, some .MACH, x.tcr⟩, false)
  else if lt P.hCas h then
    (⟨t, h, s, cas2tas b P.vcas h 0.0, P.vsCas, some .CAS, x.tcr⟩, false)
  else if lt (1000.0 * ft) h then
    let v := x.v + -0.2 * P.dt
    let v := if lt (tas2cas b v h 0.0) P.vApp then cas2tas b P.vApp h 0.0 else v
    (⟨t, h, s, v, P.vsPost, some .POSTCAS, x.tcr⟩, false)
  else if lt 0.0 h then
    (⟨t, h, s, P.vApp, P.vsFa, some .FA, x.tcr⟩, false)
  else
    let v := x.v + P.aLnd * P.dt
    (⟨t, 0.0, s, v, 0.0, some .LD, x.tcr⟩, decide (¬ lt 0.0 v))

/-- `gen.py:458-462`. -/
def cruiseStart (P : Cruise α) : State α :=
  ⟨0.0, P.hCr, 0.0, mach2tas b P.mach P.hCr 0.0, 0.0, none, 0.0⟩

/-- `gen.py:466-470`. -/
def cruisePass (P : Cruise α) (x : State α) : State α × Bool :=
  let t := x.t + P.dt
  let s := x.s + x.v * P.dt
  ({ x with t := t, s := s }, decide (lt P.distance s))

end Verif.GenLoop
