import Verif.Model.Aero
import Verif.Model.Registry
import Verif.Model.Arrays

/-!
# `openap/addon/bada4.py`

`/repo/openap/addon/bada4.py`. The classes compute through an attribute `self.sci` that no constructor
sets (`/repo/openap/base.py:24-26`, `52-54`, `88-90`). The parameter `sci` says whether the user has
supplied it: `false` is the module as shipped, `true` is `sci = numpy` set on the classes. `self.aero`
is the NumPy one. Python's `float` on text is an arbitrary partial function `num`.
-/

namespace Verif.Bada4
open Verif Verif.Tables Verif.Registry Verif.Arrays

/-! ## Reading a model file -/

/-- An XML element: tag, text before the first child, children. -/
inductive Elem where
  | mk (tag : Str) (text : Option Str) (children : List Elem)

@[inherit_doc Elem] def Elem.tag : Elem → Str | .mk t _ _ => t
@[inherit_doc Elem] def Elem.text : Elem → Option Str | .mk _ t _ => t
@[inherit_doc Elem] def Elem.children : Elem → List Elem | .mk _ _ c => c

mutual
/-- All elements below one, in document order: `elem.iter()` without the element itself. -/
def Elem.inside : Elem → List Elem
  | .mk _ _ cs => insideList cs
/-- The elements of a list together with all elements below them. -/
def insideList : List Elem → List Elem
  | [] => []
  | c :: cs => c :: (c.inside ++ insideList cs)
end

/-- One step of an ElementPath: `/tag` or `//*`. -/
inductive Step where
  | child (tag : Str)
  | any

/-- `ElementPath.iterfind`: the elements selected so far, in order. -/
def Step.run : Step → List Elem → List Elem
  | .child t, es => es.flatMap fun e => e.children.filter fun c => c.tag == t
  | .any, es => es.flatMap Elem.inside

/-- `tree.findall(path)`. -/
def findall (root : Elem) (path : List Step) : List Elem := path.foldl (fun es s => s.run es) [root]

/-- The characters of a string. -/
def chars (s : String) : Str := s.toList.map Char.toNat

/-- A path of tags, `./a/b/c`. -/
def tags (l : List String) : List Step := l.map fun s => .child (chars s)

/-- `[float(v.text) for v in bxml.findall(path)]`; `float(None)` is a `TypeError`. -/
def nums (num : Str → Option ℝ) (root : Elem) (path : List Step) : Except PyError (List ℝ) :=
  (findall root path).mapM fun e => match e.text with
    | none => .error .typeError
    | some s => match num s with
      | none => .error .valueError
      | some x => .ok x

/-- `float(bxml.findtext(path))`: the text of the first element found, `""` if it has none; `None` if
there is no element. -/
def number (num : Str → Option ℝ) (root : Elem) (path : List Step) : Except PyError ℝ :=
  match findall root path with
  | [] => .error .typeError
  | e :: _ => match num (e.text.getD []) with
    | none => .error .valueError
    | some x => .ok x

/-- A directory as `glob` lists it: model directories with the files in them, each with the outcome of
`ElementTree.parse`. A plain file has no files in it. -/
abbrev Dir := List (Str × List (Str × Except PyError Elem))

/-- A name matches `pattern*` where the pattern has no wildcards; `glob` hides names starting with a dot
from patterns that do not. -/
def startsWith (p s : Str) : Bool := p.isPrefixOf s && !(p.isEmpty && [46].isPrefixOf s)

/-- A name matches `*.xml`. -/
def isXml (s : Str) : Bool := (chars ".xml").isSuffixOf s && !([46].isPrefixOf s)

/-- `load_bada4`, `bada4.py:12-32`, for codes without wildcard characters and without `/`. -/
def load (dir : Dir) (ac : Str) : Except PyError Elem :=
  match dir.filter fun d => startsWith (upper ac) d.1 with
  | [] => .error .valueError
  | d :: _ => match d.2.filter fun f => isXml f.1 with
    | [] => .error .indexError
    | f :: _ => f.2

/-! ## Drag -/

/-- Reading `self.sci`. -/
def need (sci : Bool) : Except PyError Unit := if sci then .ok () else .error .attributeError

/-- `Drag`, `bada4.py:36-58`. -/
structure Drag where
  scalar : ℝ
  d : List ℝ
  machMax : ℝ
  area : ℝ

/-- `Drag.__init__`, `bada4.py:39-58`. The attribute `self.sci` is looked up before the arguments of
`array` are evaluated. -/
def mkDrag (sci : Bool) (num : Str → Option ℝ) (loaded : Except PyError Elem) : Except PyError Drag := do
  let x ← loaded
  let scalar ← number num x (.any :: tags ["DPM_clean", "scalar"])
  need sci
  let d ← nums num x (.any :: tags ["CD_clean", "d"])
  let machMax ← number num x (.any :: tags ["DPM_clean", "M_max"])
  let area ← number num x (tags ["AFCM", "S"])
  return ⟨scalar, d, machMax, area⟩

/-- `Drag._cd_base`, `bada4.py:60-81`. `d_[0:5].reshape(5, 1)`, `d_[5:10].reshape(5, 1)`, `d_[10]` and
`d_[11:15].reshape(4, 1)` fail in this order when there are too few coefficients. -/
noncomputable def Drag.cdBase (sci : Bool) (o : Drag) (cl mach : Nd) : Except PyError Nd := do
  let cl := cl.col
  let mach := mach.col
  let mm := mach.map fun m => npNR.power (1.0 - m ^ 2) (-0.5)
  need sci
  if o.d.length < 10 then throw .valueError
  if o.d.length < 11 then throw .indexError
  if o.d.length < 15 then throw .valueError
  let C0 := mm.map fun x => nsum 5 fun i => x ^ i * .val (o.d.getD i 0)
  let C2 := mm.map fun x => nsum 5 fun i => x ^ (3 * i) * .val (o.d.getD (5 + i) 0)
  let C6 := mm.map fun x =>
    .val (o.d.getD 10 0) + nsum 4 fun i => x ^ (14 + i) * .val (o.d.getD (11 + i) 0)
  let t2 ← op2 (· * ·) C2 (cl.map (· ^ 2))
  let s ← op2 (· + ·) C0 t2
  let t6 ← op2 (· * ·) C6 (cl.map (· ^ 6))
  let s ← op2 (· + ·) s t6
  return (s.map (.val o.scalar * ·)).toScalar

/-- `mach < bound` for one entry; comparison with NaN is false. -/
def NRlt : NR → ℝ → Prop
  | .val x, c => x < c
  | .nan, _ => False

open Classical in
/-- `Drag._cd`, `bada4.py:83-100`. -/
noncomputable def Drag.cd (sci : Bool) (o : Drag) (cl mach : Nd) : Except PyError Nd := do
  let cl := cl.col
  let mach := mach.col
  let cd ← o.cdBase sci cl mach
  let machBase := o.machMax - 0.01
  let cdMax ← o.cdBase sci cl (.num (.val o.machMax))
  let cdMachBase ← o.cdBase sci cl (.num (.val machBase))
  let divergent := mach.map fun m => (m - .val machBase) / 0.01
  need sci
  let divergent := divergent.map fun x => npNR.maximum x 0.0
  let diff ← op2 (· - ·) cdMax cdMachBase
  let t ← op2 (· * ·) (divergent.map fun x => npNR.power x 1.5) diff
  let crit ← op2 (· + ·) cdMachBase t
  let r ← op3 (fun m c k => if NRlt m o.machMax then c else k) mach cd crit
  return r.toScalar

/-- `Drag._cl`, `bada4.py:102-113`. -/
noncomputable def Drag.cl (sci : Bool) (o : Drag) (mass tas alt : Nd) : Except PyError (Nd × Nd) := do
  let mass := mass.col
  let v := tas.col.map (· * Aero.kts)
  let h := alt.col.map (· * Aero.ft)
  let rho := h.map fun x => Aero.density npNR x 0.0
  let qS ← op2 (fun r v => 0.5 * r * v ^ 2 * .val o.area) rho v
  let L := mass.map (· * Aero.g0)
  need sci
  let cl ← op2 (fun l q => l / npNR.maximum q 1e-3) L qS
  return (cl.toScalar, qS.toScalar)

/-- `Drag.clean`, `bada4.py:115-137`. The vertical rate is passed to `_cl`, which does not use it. -/
noncomputable def Drag.clean (sci : Bool) (o : Drag) (mass tas alt : Nd) : Except PyError Nd := do
  let v := tas.col.map (· * Aero.kts)
  let h := alt.col.map (· * Aero.ft)
  let mach ← op2 (fun v h => Aero.tas2mach npNR v h 0.0) v h
  let c ← o.cl sci mass tas alt
  let cd ← o.cd sci c.1 mach
  let r ← op2 (· * ·) cd c.2
  return r.toScalar

/-! ## Thrust -/

/-- `Thrust`, `bada4.py:140-172`: the coefficients per rating, MCRZ then MCMB. -/
structure Thrust where
  mref : ℝ
  a : List ℝ
  ti : List ℝ
  kink : ℝ × ℝ
  b : List ℝ × List ℝ
  c : List ℝ × List ℝ

/-- `Thrust.__init__`, `bada4.py:143-172`. -/
def mkThrust (num : Str → Option ℝ) (loaded : Except PyError Elem) : Except PyError Thrust := do
  let x ← loaded
  let mref ← number num x (tags ["PFM", "MREF"])
  let a ← nums num x (tags ["PFM", "TFM", "CT", "a"])
  let ti ← nums num x (tags ["PFM", "TFM", "LIDL", "CT", "ti"])
  let k1 ← number num x (tags ["PFM", "TFM", "MCRZ", "kink"])
  let b1 ← nums num x (tags ["PFM", "TFM", "MCRZ", "flat_rating", "b"])
  let c1 ← nums num x (tags ["PFM", "TFM", "MCRZ", "temp_rating", "c"])
  let k2 ← number num x (tags ["PFM", "TFM", "MCMB", "kink"])
  let b2 ← nums num x (tags ["PFM", "TFM", "MCMB", "flat_rating", "b"])
  let c2 ← nums num x (tags ["PFM", "TFM", "MCMB", "temp_rating", "c"])
  return ⟨mref, a, ti, (k1, k2), (b1, b2), (c1, c2)⟩

/-- `"MCRZ"`, `"MCMB"`, `"LIDL"`. -/
def mcrz : Str := [77, 67, 82, 90]
@[inherit_doc mcrz] def mcmb : Str := [77, 67, 77, 66]
@[inherit_doc mcrz] def lidl : Str := [76, 73, 68, 76]

/-- `x <= bound` for one entry. -/
def NRle : NR → ℝ → Prop
  | .val x, c => x ≤ c
  | .nan, _ => False

open Classical in
/-- The truth value of `dT <= kink`: `ValueError` unless there is exactly one entry. -/
noncomputable def truthLe (dT : Nd) (kink : ℝ) : Except PyError Bool :=
  if dT.rows * dT.cols = 1 then .ok (decide (NRle (dT.get 0 0) kink)) else .error .valueError

/-- `Thrust.cT`, `bada4.py:174-224`. Stacking arrays of different sizes in the last branch is a
`ValueError`. -/
noncomputable def Thrust.cT (sci : Bool) (o : Thrust) (mach h : Nd) (rating : Str) (dT : Nd) :
    Except PyError Nd := do
  let mach := mach.col
  let h := h.col
  let dT := dT.col
  let rating := upper rating
  if ¬ (rating = mcrz ∨ rating = mcmb ∨ rating = lidl) then throw .assertionError
  let delta := h.map fun x => Aero.pressure npNR x 0.0 / Aero.p0
  let theta := h.map fun x => Aero.temperature npNR x 0.0 / Aero.T0
  if rating = lidl then
    need sci
    let r ← einsum 3 4 o.ti
      delta.rows (fun j k => if j = 0 then 1.0 / delta.get k 0 else delta.get k 0 ^ (j - 1))
      mach.rows (fun i k => mach.get k 0 ^ i)
    return r.toScalar
  else
    let cold ← truthLe dT (if rating = mcrz then o.kink.1 else o.kink.2)
    need sci
    let deltaT ←
      if cold then
        einsum 6 6 (if rating = mcrz then o.b.1 else o.b.2)
          mach.rows (fun j k => mach.get k 0 ^ j) delta.rows (fun i k => delta.get k 0 ^ i)
      else do
        let thetaT ← op2 (fun t m => t * (1.0 + m ^ 2 * (1.4 - 1.0) / 2.0)) theta mach
        if thetaT.rows ≠ delta.rows then throw .valueError
        einsum 9 5 (if rating = mcrz then o.c.1 else o.c.2)
          mach.rows (fun j k => mach.get k 0 ^ j)
          thetaT.rows
          (fun i k => if i < 5 then thetaT.get k 0 ^ i else delta.get k 0 ^ (i - 4))
    let r ← einsum 6 6 o.a
      mach.rows (fun j k => mach.get k 0 ^ j) deltaT.cols (fun i k => deltaT.get 0 k ^ i)
    return r.toScalar

/-- The common body of `Thrust.climb`, `cruise` and `idle`, `bada4.py:226-268` and `285-305`. -/
noncomputable def Thrust.rated (sci : Bool) (o : Thrust) (rating : Str) (tas alt dT : Nd) :
    Except PyError Nd := do
  let h := alt.col.map (· * Aero.ft)
  let v := tas.col.map (· * Aero.kts)
  let mach ← op2 (fun v h => Aero.tas2mach npNR v h 0.0) v h
  let delta := h.map fun x => Aero.pressure npNR x 0.0 / Aero.p0
  let cT ← o.cT sci mach h rating dT
  let r ← op2 (fun d c => d * .val o.mref * Aero.g0 * c) delta cT
  return r.toScalar

/-- `Thrust.climb`, `bada4.py:226-246`. -/
noncomputable def Thrust.climb (sci : Bool) (o : Thrust) (tas alt dT : Nd) : Except PyError Nd :=
  o.rated sci mcmb tas alt dT

/-- `Thrust.cruise`, `bada4.py:248-268`. -/
noncomputable def Thrust.cruise (sci : Bool) (o : Thrust) (tas alt dT : Nd) : Except PyError Nd :=
  o.rated sci mcrz tas alt dT

/-- `Thrust.takeoff`, `bada4.py:270-283`. -/
noncomputable def Thrust.takeoff (sci : Bool) (o : Thrust) (tas alt dT : Nd) : Except PyError Nd :=
  (o.climb sci tas.col alt.col dT.col).map Nd.toScalar

/-- `Thrust.idle`, `bada4.py:285-305`. -/
noncomputable def Thrust.idle (sci : Bool) (o : Thrust) (tas alt dT : Nd) : Except PyError Nd :=
  o.rated sci lidl tas alt dT

/-! ## Fuel flow -/

/-- `FuelFlow`, `bada4.py:309-330`. -/
structure FuelFlow where
  thrust : Thrust
  drag : Drag
  massRef : ℝ
  f : List ℝ
  fi : List ℝ
  lhv : ℝ

/-- `FuelFlow.__init__`, `bada4.py:312-330`. -/
def mkFuelFlow (sci : Bool) (num : Str → Option ℝ) (loaded : Except PyError Elem) :
    Except PyError FuelFlow := do
  let t ← mkThrust num loaded
  let d ← mkDrag sci num loaded
  let x ← loaded
  let massRef ← number num x (tags ["PFM", "MREF"])
  let f ← nums num x (tags ["PFM", "TFM", "CF", "f"])
  let fi ← nums num x (tags ["PFM", "TFM", "LIDL", "CF", "fi"])
  let lhv ← number num x (tags ["PFM", "LHV"])
  return ⟨t, d, massRef, f, fi, lhv⟩

open Classical in
/-- `FuelFlow._calc_fuel`, `bada4.py:332-342`; the mass is not used. `1 / self.lhv` divides Python
floats. -/
noncomputable def FuelFlow.calc (o : FuelFlow) (delta theta cF : Nd) : Except PyError Nd := do
  let x ← op2 (fun d t => d * npNR.power t 0.5 * .val o.massRef * Aero.g0 * Aero.a0) delta.col theta.col
  if o.lhv = 0 then throw .zeroDivision
  let r ← op2 (fun x c => x * .val (1 / o.lhv) * c) x cF.col
  return r.toScalar

/-- `FuelFlow.idle`, `bada4.py:344-372`; the mass is not used. -/
noncomputable def FuelFlow.idle (sci : Bool) (o : FuelFlow) (tas alt : Nd) : Except PyError Nd := do
  let h := alt.col.map (· * Aero.ft)
  let v := tas.col.map (· * Aero.kts)
  let mach ← op2 (fun v h => Aero.tas2mach npNR v h 0.0) v h
  let delta := h.map fun x => Aero.pressure npNR x 0.0 / Aero.p0
  let theta := h.map fun x => Aero.temperature npNR x 0.0 / Aero.T0
  need sci
  let cF ← einsum 3 3 o.fi
    delta.rows (fun j k => delta.get k 0 ^ j) mach.rows (fun i k => mach.get k 0 ^ i)
  let r ← o.calc delta theta cF
  return r.toScalar

open Classical in
/-- `FuelFlow.enroute`, `bada4.py:374-412`. -/
noncomputable def FuelFlow.enroute (sci : Bool) (o : FuelFlow) (mass tas alt vs : Nd) :
    Except PyError Nd := do
  let mass := mass.col
  let vs := vs.col
  let h := alt.col.map (· * Aero.ft)
  let v := tas.col.map (· * Aero.kts)
  let mach ← op2 (fun v h => Aero.tas2mach npNR v h 0.0) v h
  let delta := h.map fun x => Aero.pressure npNR x 0.0 / Aero.p0
  let theta := h.map fun x => Aero.temperature npNR x 0.0 / Aero.T0
  need sci
  let gamma ← op2 (fun r v => npNR.arctan2 (r * Aero.fpm) v) vs v
  let D ← o.drag.clean sci mass tas.col alt.col
  let w ← op2 (fun m g => m * Aero.g0 * npNR.sin g) mass gamma
  let T ← op2 (· + ·) D w
  let cT ← op2 (fun t d => t / (d * .val o.massRef * Aero.g0)) T delta
  let cF ← einsum 5 5 o.f
    cT.rows (fun j k => cT.get k 0 ^ j) mach.rows (fun i k => mach.get k 0 ^ i)
  let nonIdle ← o.calc delta theta cF
  let idle ← o.idle sci tas.col alt.col
  let r ← op3 (fun r i n => if NRlt r (-250) then i else n) vs idle nonIdle
  return r.toScalar

end Verif.Bada4
