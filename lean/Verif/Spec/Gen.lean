import Verif.Model.Gen

/-!
# Trajectories: what is asked of the generator
-/

namespace Verif.Gen
open Verif Verif.Aero

section
variable {G : Type} (R : Rng G)

/-- The call `climb(**kw)` returns the frame `fr` and leaves the generator as `f'`. -/
def ClimbReturns (f : FlightGen G) (kw : Kw) (fr : ClimbFrame) (f' : FlightGen G) : Prop :=
  ∃ n, climb R n f kw = some (.ok (fr, f'))

/-- The call `descent(**kw)` returns. -/
def DescentReturns (f : FlightGen G) (kw : Kw) (fr : DescentFrame) (f' : FlightGen G) : Prop :=
  ∃ n, descent R n f kw = some (.ok (fr, f'))

/-- The call `cruise(**kw)` returns. -/
def CruiseReturns (f : FlightGen G) (kw : Kw) (fr : CruiseFrame) (f' : FlightGen G) : Prop :=
  ∃ n, cruise R n f kw = some (.ok (fr, f'))

/-- The call `complete(**kw)` returns. -/
def CompleteReturns (f : FlightGen G) (kw : Kw) (rows : List OutRow) (f' : FlightGen G) : Prop :=
  ∃ n, complete R n f kw = some (.ok (rows, f'))

/-- The call `complete(**kw)` raises. -/
def CompleteRaises (f : FlightGen G) (kw : Kw) (e : PyError) : Prop :=
  ∃ n, complete R n f kw = some (.error e)

/-- The bit generator produces numbers of the unit interval. -/
def Rng.Unit : Prop := ∀ g, 0 ≤ (R.unit g).1 ∧ (R.unit g).1 ≤ 1
end

/-- Sign conditions on climb parameters. -/
structure ClimbParams.Valid (P : ClimbParams) : Prop where
  dt : 0 < P.dt
  aTof : 0 < P.aTof
  vsIc : 0 < P.vsIc
  vsPre : 0 < P.vsPre
  vsCas : 0 < P.vsCas
  vsMach : 0 < P.vsMach
  mach : 0 ≤ P.mach

/-- Sign conditions on descent parameters. -/
structure DescentParams.Valid (P : DescentParams) : Prop where
  dt : 0 < P.dt
  aLnd : P.aLnd < 0
  vsMach : P.vsMach < 0
  vsCas : P.vsCas < 0
  vsPost : P.vsPost < 0
  vsFa : P.vsFa < 0
  hCas : 0 ≤ P.hCas
  hMach : 0 ≤ P.hMach
  hCr : 0 ≤ P.hCr

/-- Keyword arguments of sensible sign and size: positive time step, non-negative altitude,
cruise and descent Mach at least 0.5, descent CAS at most 330 kt. -/
structure Kw.Sensible (kw : Kw) : Prop where
  dt : ∀ d, kw.dt = some d → 0 < d
  machCl : ∀ m, kw.machCl = some m → 0 ≤ m
  casDe : ∀ c, kw.casDe = some c → 0 < c ∧ c ≤ 330
  machDe : ∀ m, kw.machDe = some m → 0.5 ≤ m
  machCr : ∀ m, kw.machCr = some m → 0.5 ≤ m
  altCr : ∀ a, kw.altCr = some a → 0 ≤ a

/-- Order of the climb segments. -/
def climbRank : Option Seg → ℕ
  | none => 0
  | some .TO => 1
  | some .IC => 2
  | some .PRECAS => 3
  | some .CAS => 4
  | some .MACH => 5
  | some .CR => 6
  | some _ => 7

/-- Order of the descent segments. -/
def descentRank : Option Seg → ℕ
  | none => 0
  | some .CR => 1
  | some .MACH => 2
  | some .CAS => 3
  | some .POSTCAS => 4
  | some .FA => 5
  | some .LD => 6
  | some _ => 7

end Verif.Gen
