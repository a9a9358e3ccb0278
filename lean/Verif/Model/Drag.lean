import Verif.Model.Aero

/-!
# `openap/drag.py`

Methods of class `Drag` (`/repo/openap/drag.py:92-284`), term by term. The constructor and
`load_drag_model` (lines 26-90) are in `Model/Construct.lean`. The decorator
`@ndarrayconvert` is modelled separately (`Model/Ndarray.lean`).
-/

namespace Verif.Drag
open Verif.Aero

/-- Entries of the aircraft record that `drag.py` reads:
`["wing"]["area"|"span"|"sweep"|"t/c"]`, `["limits"]["MTOW"]`, and whether
`["engine"]["mount"] == "rear"`. `t/c` may be `null`. -/
structure Airframe (α : Type) where
  area : α
  span : α
  sweep : α
  tc : Option α
  mtow : α
  rear : Bool

/-- Entries of the drag-polar record: `["clean"]["cd0"|"k"]`,
`["flaps"]["lambda_f"|"cf/c"|"Sf/S"]`. -/
structure Polar (α : Type) where
  cd0 : α
  k : α
  lambdaF : α
  cfc : α
  sfs : α

variable {α : Type} [Add α] [Sub α] [Mul α] [Div α] [Neg α] [OfScientific α] [Pow α ℕ]
variable (b : Backend α) (ac : Airframe α) (pol : Polar α)

/-- `Drag._cl`, `drag.py:92-126`: lift coefficient and dynamic pressure times area. -/
def cl (mass tas alt vs dT : α) : α × α :=
  let v := tas * kts
  let h := alt * ft
  let vs := vs * fpm
  let gam := b.arctan2 vs v
  let S := ac.area
  let rho := density b h dT
  let qS := 0.5 * rho * v ^ 2 * S
  let L := mass * g0 * b.cos gam
  let qS := b.maximum qS 1e-3
  let cl := L / qS
  (cl, qS)

/-- `Drag._calc_drag`, `drag.py:128-156`. -/
def calcDrag (mass tas alt cd0 k vs dT : α) : α :=
  let cl_qS := cl b ac mass tas alt vs dT
  let cd := cd0 + k * cl_qS.1 ^ 2
  cd * cl_qS.2

/-- Critical Mach number, `drag.py:188-202`. -/
def machCrit (lift : α) : α :=
  let sweep := ac.sweep * b.pi / 180.0
  let tc := ac.tc.getD 0.12
  let cos_sweep := b.cos sweep
  let kappa : α := 0.95
  kappa / cos_sweep - tc / cos_sweep ^ 2 - 0.1 * lift / cos_sweep ^ 3 - 0.108

/-- Wave-drag coefficient `dCdw`, `drag.py:185-206`. `_cl` is called without `vs`. -/
def waveDrag (mass tas alt dT : α) : α :=
  let mach := tas2mach b (tas * kts) (alt * ft) dT
  let lift := (cl b ac mass tas alt 0.0 dT).1
  let dmach := b.maximum (mach - machCrit b ac lift) 0.0
  20.0 * dmach ^ 4

/-- `Drag.clean`, `drag.py:158-214`; `wave` is the constructor flag `wave_drag`. -/
def clean (wave : Bool) (mass tas alt vs dT : α) : α :=
  let dCdw := if wave then waveDrag b ac mass tas alt dT else 0.0
  calcDrag b ac mass tas alt (pol.cd0 + dCdw) pol.k vs dT

/-- Flap drag coefficient, `drag.py:251-254`. -/
def flapCd (flap : α) : α :=
  pol.lambdaF * b.power pol.cfc 1.38 * pol.sfs * b.sin (flap * b.pi / 180.0) ^ 2

/-- Landing-gear drag coefficient, `drag.py:256-266`. -/
def gearCd : α := ac.mtow * g0 / ac.area * 3.16e-5 * b.power ac.mtow (-0.215)

/-- Induced-drag factor with flaps, `drag.py:272-281`. -/
def flapK (flap : α) : α :=
  let delta_e_flap := if ac.rear then 0.0046 * flap else 0.0026 * flap
  let ar := ac.span ^ 2 / ac.area
  1.0 / (1.0 / pol.k + b.pi * ar * delta_e_flap)

/-- `Drag.nonclean`, `drag.py:216-284`. -/
def nonclean (mass tas alt flap vs dT : α) (gear : Bool) : α :=
  let delta_cd_gear := if gear then gearCd b ac else 0.0
  calcDrag b ac mass tas alt (pol.cd0 + flapCd b pol flap + delta_cd_gear)
    (flapK b ac pol flap) vs dT

end Verif.Drag
