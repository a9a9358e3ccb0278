import Verif.Model.GenFloat
import Verif.Prelude.Loop

/-!
# Generated flights in floating point: terms used in the statements
-/

namespace Verif.GenLoop

/-- The parameters of a climb as numbers of the machine. -/
def Climb.on {f : Format} (M : Machine f) (P : Climb ℝ) : Climb (Fl M) :=
  ⟨⟨P.dt⟩, ⟨P.aTof⟩, ⟨P.vTof⟩, ⟨P.mach⟩, ⟨P.vcas⟩, ⟨P.hCr⟩, ⟨P.vsIc⟩, ⟨P.vsPre⟩, ⟨P.vsCas⟩, ⟨P.vsMach⟩,
    ⟨P.hCas⟩, ⟨P.hMach⟩⟩

/-- The parameters of a descent as numbers of the machine. -/
def Descent.on {f : Format} (M : Machine f) (P : Descent ℝ) : Descent (Fl M) :=
  ⟨⟨P.dt⟩, P.withcr, ⟨P.aLnd⟩, ⟨P.vApp⟩, ⟨P.mach⟩, ⟨P.vcas⟩, ⟨P.hCr⟩, ⟨P.vsMach⟩, ⟨P.vsCas⟩, ⟨P.vsPost⟩,
    ⟨P.vsFa⟩, ⟨P.hCas⟩, ⟨P.hMach⟩⟩

/-- The parameters of a cruise as numbers of the machine. -/
def Cruise.on {f : Format} (M : Machine f) (P : Cruise ℝ) : Cruise (Fl M) :=
  ⟨⟨P.dt⟩, ⟨P.distance⟩, ⟨P.mach⟩, ⟨P.hCr⟩⟩

/-- `<` of two numbers of the machine. -/
def flLt {f : Format} {M : Machine f} (x y : Fl M) : Prop := x.val < y.val

noncomputable instance {f : Format} {M : Machine f} : DecidableRel (flLt (M := M)) :=
  fun _ _ => Classical.propDecidable _

/-- The loop of `climb` on the machine `M` ends, having appended `rows`. -/
def ClimbEnds {f : Format} (M : Machine f) (P : Climb ℝ) (rows : List (State (Fl M))) : Prop :=
  LoopReturns (climbPass (flt M) flLt (P.on M)) id climbStart rows

/-- The loop of `descent` on the machine `M` ends, having appended `rows`. -/
def DescentEnds {f : Format} (M : Machine f) (P : Descent ℝ) (rows : List (State (Fl M))) : Prop :=
  LoopReturns (descentPass (flt M) flLt (P.on M)) id (descentStart (flt M) (P.on M)) rows

/-- The loop of `cruise` on the machine `M` ends, having appended `rows`. -/
def CruiseEnds {f : Format} (M : Machine f) (P : Cruise ℝ) (rows : List (State (Fl M))) : Prop :=
  LoopReturns (cruisePass flLt (P.on M)) id (cruiseStart (flt M) (P.on M)) rows

/-- Climbs of ordinary size: a time step between a millisecond and a minute, acceleration between 0.1
and 10 m/s², take-off speed up to 200 m/s and below the later speeds, climb rates between 0.1 and
100 m/s, altitudes up to 15 km. The take-off speed is a number in memory. -/
structure Climb.Ordinary (P : Climb ℝ) : Prop where
  dt : 1 / 1000 ≤ P.dt ∧ P.dt ≤ 60
  aTof : 1 / 10 ≤ P.aTof ∧ P.aTof ≤ 10
  vTof : 0 ≤ P.vTof ∧ P.vTof ≤ 200
  memory : Format.binary64.Repr P.vTof
  vcas : 30 ≤ P.vcas ∧ P.vcas ≤ 400 ∧ 1.001 * P.vTof ≤ P.vcas
  mach : 0.1 ≤ P.mach ∧ P.mach ≤ 2 ∧ 1.001 * P.vTof ≤ 295 * P.mach
  rates : ∀ r ∈ [P.vsIc, P.vsPre, P.vsCas, P.vsMach], 1 / 10 ≤ r ∧ r ≤ 100
  heights : ∀ h ∈ [P.hCr, P.hMach, P.hCas], h ≤ 15000

/-- Descents of ordinary size. The cruise altitude is a number in memory. -/
structure Descent.Ordinary (P : Descent ℝ) : Prop where
  dt : 1 / 1000 ≤ P.dt ∧ P.dt ≤ 60
  aLnd : -10 ≤ P.aLnd ∧ P.aLnd ≤ -1 / 10
  vApp : 30 ≤ P.vApp ∧ P.vApp ≤ 400
  vcas : 30 ≤ P.vcas ∧ P.vcas ≤ 400
  mach : 0.1 ≤ P.mach ∧ P.mach ≤ 2
  rates : ∀ r ∈ [P.vsMach, P.vsCas, P.vsPost, P.vsFa], -100 ≤ r ∧ r ≤ -1 / 10
  hCr : 0 ≤ P.hCr ∧ P.hCr ≤ 15000
  memory : Format.binary64.Repr P.hCr
  heights : 0 ≤ P.hMach ∧ 0 ≤ P.hCas

/-- Cruises of ordinary size: up to 10000 km. -/
structure Cruise.Ordinary (P : Cruise ℝ) : Prop where
  dt : 1 / 1000 ≤ P.dt ∧ P.dt ≤ 60
  mach : 0.1 ≤ P.mach ∧ P.mach ≤ 2
  hCr : |P.hCr| ≤ 50000
  distance : P.distance ≤ 10000000

end Verif.GenLoop
