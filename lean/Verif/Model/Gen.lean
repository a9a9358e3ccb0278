import Verif.Prelude.Loop
import Verif.Prelude.Py
import Verif.Model.Aero
import Verif.Model.Kinematic

/-!
# `openap/gen.py`

Class `FlightGenerator` (`/repo/openap/gen.py:35-548`): parameter selection, the three `while
True` loops, noise, derived columns and `complete`. Python `int` and `float` are both read as
reals. Keyword arguments are the documented ones; the methods ignore any other keyword.

The bit generator is abstract (`Rng`): only which numbers are drawn, in which order, is modelled.
When a method raises, the state of the bit generator is not modelled.
-/

namespace Verif.Gen
open Verif Verif.Tables Verif.Aero Verif.Kinematic

/-- Flight segments named in `gen.py:183-205,344-364`. -/
inductive Seg
  | TO | IC | PRECAS | CAS | MACH | CR | POSTCAS | FA | LD
  deriving DecidableEq

/-- One row of `data`, `gen.py:175,336,465`. The cruise frame has no `seg` column; `none` there. -/
structure Row where
  t : ℝ
  h : ℝ
  s : ℝ
  v : ℝ
  vs : ℝ
  seg : Option Seg

/-- A row of the returned frame: a row of `data` and the integer columns of
`gen.py:224-227`. -/
structure OutRow extends Row where
  altitude : ℤ
  verticalRate : ℤ
  groundspeed : ℤ

/-- Documented keyword arguments of `climb`, `descent`, `cruise` and `complete`. -/
structure Kw where
  dt : Option ℝ := none
  casCl : Option ℝ := none
  machCl : Option ℝ := none
  casDe : Option ℝ := none
  machDe : Option ℝ := none
  rangeCr : Option ℝ := none
  altCr : Option ℝ := none
  machCr : Option ℝ := none
  random : Option Bool := none
  withcr : Option Bool := none

/-- `np.random.Generator`: the next double of the unit interval, and the next `n` standard
normals. -/
structure Rng (G : Type) where
  unit : G → ℝ × G
  gauss : ℕ → G → List ℝ × G

/-- Attributes of a `FlightGenerator`, `gen.py:51-62`. -/
structure FlightGen (G : Type) where
  wrap : List WrapRow
  rng : G
  noise : Bool := false
  sigmaV : ℝ := 0
  sigmaVs : ℝ := 0
  sigmaH : ℝ := 0
  sigmaS : ℝ := 0

/-- `enable_noise`, `gen.py:64-73`. -/
noncomputable def enableNoise {G : Type} (f : FlightGen G) : FlightGen G :=
  { f with sigmaV := 0.5, sigmaVs := 0.75, sigmaH := 7.5, sigmaS := 5, noise := true }

/-- `np.round(x, -2)`: round to hundreds, ties to even. -/
noncomputable def roundHundreds (x : ℝ) : ℝ :=
  let n := ⌊x / 100⌋
  let r := x / 100 - n
  100 * (if r < 1 / 2 then (n : ℝ) else if 1 / 2 < r then n + 1
    else if n % 2 = 0 then (n : ℝ) else n + 1)

/-- `.astype(int)`: truncation towards zero. -/
noncomputable def truncate (x : ℝ) : ℤ := if 0 ≤ x then ⌊x⌋ else ⌈x⌉

/-- The integer columns, `gen.py:224-227` (also 383-386, 484-487, 543-546). -/
noncomputable def derive (r : Row) : OutRow :=
  { r with
    altitude := truncate (r.h / ft)
    verticalRate := truncate (r.vs / fpm)
    groundspeed := truncate (r.v / kts) }

section
variable {G : Type} (R : Rng G)

/-- `rng.uniform(lo, hi)`. -/
noncomputable def uniform (g : G) (lo hi : ℤ) : ℝ × G :=
  (wreal lo + (wreal hi - wreal lo) * (R.unit g).1, (R.unit g).2)

/-- The four noise columns, `gen.py:213-222` (also 372-381, 473-482). -/
noncomputable def addNoise (f : FlightGen G) (rows : List Row) : List Row × G :=
  if f.noise then
    let n := rows.length
    let (zh, g) := R.gauss n f.rng
    let (zs, g) := R.gauss n g
    let (zv, g) := R.gauss n g
    let (zvs, g) := R.gauss n g
    (rows.mapIdx fun i r =>
      { r with
        h := r.h + (0 + f.sigmaH * zh.getD i 0)
        s := r.s + (0 + f.sigmaS * zs.getD i 0)
        v := r.v + (0 + f.sigmaV * zv.getD i 0)
        vs := r.vs + (0 + f.sigmaVs * zvs.getD i 0) }, g)
  else (rows, f.rng)

/-! ## Climb -/

/-- Parameters of the climb loop, `gen.py:89-160`. -/
structure ClimbParams where
  dt : ℝ
  aTof : ℝ
  vTof : ℝ
  cas : ℝ
  mach : ℝ
  alt : ℝ
  vcas : ℝ
  hCr : ℝ
  vsIc : ℝ
  vsPre : ℝ
  vsCas : ℝ
  vsMach : ℝ
  hCas : ℝ
  hMach : ℝ

/-- `gen.py:89-160`. Both branches of `if random` read the same variables; `kwargs.get`
evaluates its default, hence draws, even when the keyword is given. -/
noncomputable def climbSetup (f : FlightGen G) (kw : Kw) : Except PyError (ClimbParams × G) := do
  let aTof ← getVar f.wrap takeoffAcceleration
  let vTof ← getVar f.wrap takeoffSpeed
  let wCas ← getVar f.wrap climbConstVcas
  let wMach ← getVar f.wrap climbConstMach
  let wAlt ← getVar f.wrap cruiseAlt
  let wPre ← getVar f.wrap climbVsPreConcas
  let wCon ← getVar f.wrap climbVsConcas
  let wCom ← getVar f.wrap climbVsConmach
  let wIc ← getVar f.wrap initclimbVs
  let wX ← getVar f.wrap climbCrossAltConcas
  let finish (cas mach alt pre con com : ℝ) (g : G) : ClimbParams × G :=
    let vcas := cas * kts
    let alt := roundHundreds alt
    ({ dt := kw.dt.getD 1, aTof := wreal aTof.opt, vTof := wreal vTof.opt, cas := cas,
       mach := mach, alt := alt, vcas := vcas, hCr := alt * ft, vsIc := wreal wIc.opt,
       vsPre := pre, vsCas := con, vsMach := com, hCas := wreal wX.opt * 1000,
       hMach := crossoverAlt np vcas mach 0 }, g)
  if kw.random.getD false then
    let (u1, g) := uniform R f.rng wCas.min wCas.max
    let cas := kw.casCl.getD (u1 / kts)
    let (u2, g) := uniform R g wMach.min wMach.max
    let mach := kw.machCl.getD u2
    let (u3, g) := uniform R g wAlt.min wAlt.max
    let alt := kw.altCr.getD (u3 * 1000 / ft)
    let (pre, g) := uniform R g wPre.min wPre.max
    let (con, g) := uniform R g wCon.min wCon.max
    let (com, g) := uniform R g wCom.min wCom.max
    return finish cas mach alt pre con com g
  else
    let cas := kw.casCl.getD (wreal wCas.opt / kts)
    let cas := max cas (wreal vTof.opt / kts)
    let mach := kw.machCl.getD (wreal wMach.opt)
    let alt := kw.altCr.getD (wreal wAlt.opt * 1000 / ft)
    return finish cas mach alt (wreal wPre.opt) (wreal wCon.opt) (wreal wCom.opt) f.rng

/-- Loop variables of `climb`: the recorded ones and `tcr`. -/
structure ClimbState extends Row where
  tcr : ℝ

/-- `gen.py:165-172`. -/
def climbInit : ClimbState :=
  { t := 0, tcr := 0, h := 0, s := 0, v := 0, vs := 0, seg := none }

/-- Loop body, `gen.py:176-211`. -/
noncomputable def climbBody (P : ClimbParams) (x : ClimbState) : ClimbState × Bool :=
  let t := x.t + P.dt
  let s := x.s + x.v * P.dt
  let h := x.h + x.vs * P.dt
  if x.v < P.vTof then
    ({ t := t, s := s, h := h, v := x.v + P.aTof * P.dt, vs := 0, seg := some .TO, tcr := x.tcr }, false)
  else if h < 1500 * ft then
    let v := x.v + 0.5 * P.dt
    let v := if P.vcas ≤ tas2cas np v h 0 then cas2tas np P.vcas h 0 else v
    ({ t := t, s := s, h := h, v := v, vs := P.vsIc, seg := some .IC, tcr := x.tcr }, false)
  else if h < P.hCas then
    let v := x.v + 0.5 * P.dt
    let v := if P.vcas ≤ tas2cas np v h 0 then cas2tas np P.vcas h 0 else v
    ({ t := t, s := s, h := h, v := v, vs := P.vsPre, seg := some .PRECAS, tcr := x.tcr }, false)
  else if h < P.hMach then
    ({ t := t, s := s, h := h, v := cas2tas np P.vcas h 0, vs := P.vsCas,
       seg := some .CAS, tcr := x.tcr }, false)
  else if h < P.hCr then
    ({ t := t, s := s, h := h, v := mach2tas np P.mach h 0, vs := P.vsMach,
       seg := some .MACH, tcr := x.tcr }, false)
  else
    let tcr := if x.tcr = 0 then t else x.tcr
    ({ t := t, s := s, h := h, v := mach2tas np P.mach h 0, vs := 0, seg := some .CR,
       tcr := tcr }, decide (60 < t - tcr))

/-- A returned frame: its rows and the constant columns. -/
structure ClimbFrame where
  rows : List OutRow
  params : ClimbParams

/-- `climb`, `gen.py:75-235`; `none` when the loop has not ended after `n` passes. -/
noncomputable def climb (n : ℕ) (f : FlightGen G) (kw : Kw) :
    Option (Except PyError (ClimbFrame × FlightGen G)) :=
  match climbSetup R f kw with
  | .error e => some (.error e)
  | .ok (P, g) =>
    (loop (climbBody P) ClimbState.toRow n climbInit).map fun rows =>
      let (rows, g) := addNoise R { f with rng := g } rows
      .ok ({ rows := rows.map derive, params := P }, { f with rng := g })

/-! ## Descent -/

/-- Parameters of the descent loop, `gen.py:252-322`. -/
structure DescentParams where
  dt : ℝ
  withcr : Bool
  aLnd : ℝ
  vApp : ℝ
  cas : ℝ
  mach : ℝ
  alt : ℝ
  vcas : ℝ
  hCr : ℝ
  vsMach : ℝ
  vsCas : ℝ
  vsPost : ℝ
  vsFa : ℝ
  hCas : ℝ
  hMach : ℝ

/-- `gen.py:252-322`. -/
noncomputable def descentSetup (f : FlightGen G) (kw : Kw) :
    Except PyError (DescentParams × G) := do
  let aLnd ← getVar f.wrap landingAcceleration
  let vApp ← getVar f.wrap finalappVcas
  let wAlt ← getVar f.wrap cruiseAlt
  let wMach ← getVar f.wrap descentConstMach
  let wCas ← getVar f.wrap descentConstVcas
  let wCom ← getVar f.wrap descentVsConmach
  let wCon ← getVar f.wrap descentVsConcas
  let wPost ← getVar f.wrap descentVsPostConcas
  let wFa ← getVar f.wrap finalappVs
  let wX ← getVar f.wrap descentCrossAltConcas
  let finish (alt mach cas com con post : ℝ) (g : G) : DescentParams × G :=
    let vcas := cas * kts
    let alt := roundHundreds alt
    ({ dt := kw.dt.getD 1, withcr := kw.withcr.getD true, aLnd := wreal aLnd.opt,
       vApp := wreal vApp.opt, cas := cas, mach := mach, alt := alt, vcas := vcas,
       hCr := alt * ft, vsMach := com, vsCas := con, vsPost := post, vsFa := wreal wFa.opt,
       hCas := wreal wX.opt * 1000, hMach := crossoverAlt np vcas mach 0 }, g)
  if kw.random.getD false then
    let (u1, g) := uniform R f.rng wAlt.min wAlt.max
    let alt := kw.altCr.getD (u1 * 1000 / ft)
    let (u2, g) := uniform R g wMach.min wMach.max
    let mach := kw.machDe.getD u2
    let (u3, g) := uniform R g wCas.min wCas.max
    let cas := kw.casDe.getD (u3 / kts)
    let (com, g) := uniform R g wCom.min wCom.max
    let (con, g) := uniform R g wCon.min wCon.max
    let (post, g) := uniform R g wPost.min wPost.max
    return finish alt mach cas com con post g
  else
    let mach := kw.machDe.getD (wreal wMach.opt)
    let cas := kw.casDe.getD (wreal wCas.opt / kts)
    let alt := kw.altCr.getD (wreal wAlt.opt * 1000 / ft)
    return finish alt mach cas (wreal wCom.opt) (wreal wCon.opt) (wreal wPost.opt) f.rng

/-- `gen.py:327-333`. -/
noncomputable def descentInit (P : DescentParams) : Row :=
  { t := 0, s := 0, h := P.hCr, v := mach2tas np P.mach P.hCr 0, vs := 0, seg := none }

/-- Loop body, `gen.py:337-370`. -/
noncomputable def descentBody (P : DescentParams) (x : Row) : Row × Bool :=
  let t := x.t + P.dt
  let s := x.s + x.v * P.dt
  let h := x.h + x.vs * P.dt
  if t < 60 ∧ P.withcr = true then
    ({ t := t, s := s, h := h, v := mach2tas np P.mach h 0, vs := 0, seg := some .CR }, false)
  else if P.hMach < h then
    ({ t := t, s := s, h := h, v := mach2tas np P.mach h 0, vs := P.vsMach,
       seg := some .MACH }, false)
  else if P.hCas < h then
    ({ t := t, s := s, h := h, v := cas2tas np P.vcas h 0, vs := P.vsCas,
       seg := some .CAS }, false)
  else if 1000 * ft < h then
    let v := x.v + -0.2 * P.dt
    let v := if tas2cas np v h 0 < P.vApp then cas2tas np P.vApp h 0 else v
    ({ t := t, s := s, h := h, v := v, vs := P.vsPost, seg := some .POSTCAS }, false)
  else if 0 < h then
    ({ t := t, s := s, h := h, v := P.vApp, vs := P.vsFa, seg := some .FA }, false)
  else
    let v := x.v + P.aLnd * P.dt
    ({ t := t, s := s, h := 0, v := v, vs := 0, seg := some .LD }, decide (v ≤ 0))

/-- A returned frame: its rows and the constant columns. -/
structure DescentFrame where
  rows : List OutRow
  params : DescentParams

/-- `descent`, `gen.py:237-398`. -/
noncomputable def descent (n : ℕ) (f : FlightGen G) (kw : Kw) :
    Option (Except PyError (DescentFrame × FlightGen G)) :=
  match descentSetup R f kw with
  | .error e => some (.error e)
  | .ok (P, g) =>
    (loop (descentBody P) id n (descentInit P)).map fun rows =>
      let (rows, g) := addNoise R { f with rng := g } rows
      .ok ({ rows := rows.map derive, params := P }, { f with rng := g })

/-! ## Cruise -/

/-- Parameters of the cruise loop, `gen.py:415-454`. -/
structure CruiseParams where
  dt : ℝ
  distance : ℝ
  alt : ℝ
  mach : ℝ
  hCr : ℝ

/-- `gen.py:415-454`. -/
noncomputable def cruiseSetup (f : FlightGen G) (kw : Kw) : Except PyError (CruiseParams × G) := do
  let wRange ← getVar f.wrap cruiseRange
  let wAlt ← getVar f.wrap cruiseAlt
  let wMach ← getVar f.wrap cruiseMach
  let finish (distance alt mach : ℝ) (g : G) : CruiseParams × G :=
    let alt := roundHundreds alt
    ({ dt := kw.dt.getD 1, distance := distance, alt := alt, mach := mach, hCr := alt * ft }, g)
  if kw.random.getD false then
    let (u1, g) := uniform R f.rng wRange.min wRange.max
    let distance := kw.rangeCr.getD (u1 * 1000)
    let (u2, g) := uniform R g wAlt.min wAlt.max
    let alt := kw.altCr.getD (u2 * 1000 / ft)
    let (u3, g) := uniform R g wMach.min wMach.max
    let mach := kw.machCr.getD u3
    return finish distance alt mach g
  else
    let distance := kw.rangeCr.getD (wreal wRange.opt * 1000)
    let mach := kw.machCr.getD (wreal wMach.opt)
    let alt := kw.altCr.getD (wreal wAlt.opt * 1000 / ft)
    return finish distance alt mach f.rng

/-- `gen.py:458-462`. -/
noncomputable def cruiseInit (P : CruiseParams) : Row :=
  { t := 0, h := P.hCr, s := 0, v := mach2tas np P.mach P.hCr 0, vs := 0, seg := none }

/-- Loop body, `gen.py:466-470`. -/
noncomputable def cruiseBody (P : CruiseParams) (x : Row) : Row × Bool :=
  let t := x.t + P.dt
  let s := x.s + x.v * P.dt
  ({ x with t := t, s := s }, decide (P.distance < s))

/-- A returned frame: its rows and the constant columns. -/
structure CruiseFrame where
  rows : List OutRow
  params : CruiseParams

/-- `cruise`, `gen.py:400-491`. -/
noncomputable def cruise (n : ℕ) (f : FlightGen G) (kw : Kw) :
    Option (Except PyError (CruiseFrame × FlightGen G)) :=
  match cruiseSetup R f kw with
  | .error e => some (.error e)
  | .ok (P, g) =>
    (loop (cruiseBody P) id n (cruiseInit P)).map fun rows =>
      let (rows, g) := addNoise R { f with rng := g } rows
      .ok ({ rows := rows.map derive, params := P }, { f with rng := g })

/-! ## Complete flight -/

/-- `.iloc[-1]` of the time column. -/
def lastT (rows : List OutRow) : ℝ := (rows.getLast?.map (·.t)).getD 0

/-- `.iloc[-1]` of the distance column. -/
def lastS (rows : List OutRow) : ℝ := (rows.getLast?.map (·.s)).getD 0

/-- Rows with time and distance offset, `gen.py:521-537`; no `seg` column. -/
noncomputable def offset (t s : ℝ) (r : OutRow) : OutRow :=
  derive { t := t + r.t, h := r.h, s := s + r.s, v := r.v, vs := r.vs, seg := none }

/-- The concatenation, `gen.py:519-548`. -/
noncomputable def joinParts (cl cr de : List OutRow) : List OutRow :=
  cl.map (offset 0 0) ++ cr.map (offset (lastT cl) (lastS cl)) ++
    de.map (offset (lastT cl + lastT cr) (lastS cl + lastS cr))

/-- `complete`, `gen.py:493-548`. A keyword passed both explicitly and in `**kwargs` raises
`TypeError`. -/
noncomputable def complete (n : ℕ) (f : FlightGen G) (kw : Kw) :
    Option (Except PyError (List OutRow × FlightGen G)) :=
  match cruise R n f kw with
  | none => none
  | some (.error e) => some (.error e)
  | some (.ok (cr, f)) =>
    let kw := if kw.altCr.isSome then kw else { kw with altCr := some cr.params.alt }
    if kw.machCl.isSome then some (.error .typeError)
    else match climb R n f { kw with machCl := some cr.params.mach } with
    | none => none
    | some (.error e) => some (.error e)
    | some (.ok (cl, f)) =>
      if kw.machDe.isSome then some (.error .typeError)
      else match descent R n f { kw with machDe := some cr.params.mach } with
      | none => none
      | some (.error e) => some (.error e)
      | some (.ok (de, f)) => some (.ok (joinParts cl.rows cr.rows de.rows, f))

end

/-- `FlightGenerator.__init__`, `gen.py:38-62`; `seed` is `np.random.default_rng(random_seed)`. -/
def init {G : Type} (db : Registry.DB) (ac : Str) (seed : G) (useSynonym : Bool) :
    Except PyError (FlightGen G) := do
  let _ ← Registry.aircraft db ac useSynonym
  let w ← Construct.wrap db ac (some useSynonym)
  return { wrap := w, rng := seed, sigmaV := 0, sigmaVs := 0, sigmaH := 0, sigmaS := 0 }

end Verif.Gen
