import Verif.Model.Binding

/-!
# Keyword dictionaries of the trajectory generator

`climb(**kwargs)`, `descent(**kwargs)`, `cruise(**kwargs)` and `complete(**kwargs)` of
`/repo/openap/gen.py` take keyword arguments only and read them with `kwargs.get`.
`Model/Gen.lean` starts from the record of documented keywords; here the record is filled
from a dictionary, and `complete` passes dictionaries on. Values are numbers and booleans;
others are not modelled.
-/

namespace Verif.Gen
open Verif Verif.Binding

/-- A keyword value. -/
inductive GVal where
  | num (x : ℝ)
  | bool (b : Bool)

/-- A value in arithmetic: `True` is 1 and `False` is 0. -/
def GVal.toNum : GVal → ℝ
  | .num x => x
  | .bool b => if b then 1 else 0

/-- A value as a condition. -/
noncomputable def GVal.truthy : GVal → Bool
  | .num x => decide (x ≠ 0)
  | .bool b => b

/-- The reads `kwargs.get(...)` of `gen.py:89-151,252-311,414-451`. -/
noncomputable def Kw.ofDict (d : Dict GVal) : Kw where
  dt := (d.get "dt").map GVal.toNum
  casCl := (d.get "cas_const_cl").map GVal.toNum
  machCl := (d.get "mach_const_cl").map GVal.toNum
  casDe := (d.get "cas_const_de").map GVal.toNum
  machDe := (d.get "mach_const_de").map GVal.toNum
  rangeCr := (d.get "range_cr").map GVal.toNum
  altCr := (d.get "alt_cr").map GVal.toNum
  machCr := (d.get "mach_cr").map GVal.toNum
  random := (d.get "random").map GVal.truthy
  withcr := (d.get "withcr").map GVal.truthy

section
variable {G : Type} (R : Rng G)

/-- `climb(**d)`, `gen.py:75-235`. -/
noncomputable def climbD (n : ℕ) (f : FlightGen G) (d : Dict GVal) := climb R n f (Kw.ofDict d)
/-- `descent(**d)`, `gen.py:237-398`. -/
noncomputable def descentD (n : ℕ) (f : FlightGen G) (d : Dict GVal) :=
  descent R n f (Kw.ofDict d)
/-- `cruise(**d)`, `gen.py:400-491`. -/
noncomputable def cruiseD (n : ℕ) (f : FlightGen G) (d : Dict GVal) := cruise R n f (Kw.ofDict d)

/-- `complete(**d)`, `gen.py:511-548`. -/
noncomputable def completeD (n : ℕ) (f : FlightGen G) (d : Dict GVal) :
    Option (Except PyError (List OutRow × FlightGen G)) :=
  match cruiseD R n f d with
  | none => none
  | some (.error e) => some (.error e)
  | some (.ok (cr, f)) =>
    let d := if (d.get "alt_cr").isSome then d else ("alt_cr", .num cr.params.alt) :: d
    match withKw "mach_const_cl" (.num cr.params.mach) d with
    | .error e => some (.error e)
    | .ok d1 => match climbD R n f d1 with
      | none => none
      | some (.error e) => some (.error e)
      | some (.ok (cl, f)) =>
        match withKw "mach_const_de" (.num cr.params.mach) d with
        | .error e => some (.error e)
        | .ok d2 => match descentD R n f d2 with
          | none => none
          | some (.error e) => some (.error e)
          | some (.ok (de, f)) => some (.ok (joinParts cl.rows cr.rows de.rows, f))
end

end Verif.Gen
