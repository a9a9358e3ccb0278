import Verif.Model.Aero

/-!
# `openap/thrust.py`

Methods of class `Thrust` (`/repo/openap/thrust.py:77-262`), term by term. The constructor
(lines 26-75) is in `Model/Construct.lean`. Python's `**` with a float exponent is the
backend's `power`.
-/

namespace Verif.Thrust
open Verif.Aero

/-- Attributes set by the constructor, `thrust.py:64-75`. -/
structure Params (α : Type) where
  cruiseAlt : α
  bpr : α
  maxThrust : α
  number : α
  cruiseMach : α
  cruiseThrust : α

variable {α : Type} [Add α] [Sub α] [Mul α] [Div α] [Neg α] [OfScientific α] [Pow α ℕ]
variable (b : Backend α) (e : Params α)

/-- `_dfunc`, `thrust.py:77-89`. -/
def dfunc (mratio : α) : α := -0.4204 * mratio + 1.0824

/-- `_nfunc`, `thrust.py:91-106`. -/
def nfunc (roc : α) : α := 2.667e-05 * roc + 0.8633

/-- `_mfunc`, `thrust.py:108-119`. -/
def mfunc (vratio roc : α) : α :=
  -1.2043e-1 * vratio - 8.8889e-9 * roc ^ 2 + 2.4444e-5 * roc + 4.7379e-1

/-- Thrust ratio of `takeoff` as a function of Mach number and pressure ratio,
`thrust.py:138-161`. -/
def takeoffRatio (mach dP : α) : α :=
  let G0 := 0.0606 * e.bpr + 0.6337
  let A := -0.4327 * dP ^ 2 + 1.3855 * dP + 0.0472
  let Z := 0.9106 * dP ^ 3 - 1.7736 * dP ^ 2 + 1.8697 * dP
  let X := 0.1377 * dP ^ 3 - 0.4374 * dP ^ 2 + 1.3003 * dP
  A - 0.377 * (1.0 + e.bpr) / b.sqrt ((1.0 + 0.82 * e.bpr) * G0) * Z * mach
    + (0.23 + 0.19 * b.sqrt e.bpr) * X * mach ^ 2

/-- `Thrust.takeoff`, `thrust.py:121-163`. The Mach number is taken at altitude 0. -/
def takeoff (tas alt dT : α) : α :=
  let mach := tas2mach b (tas * kts) 0.0 dT
  let P := pressure b (alt * ft) dT
  let dP := P / p0
  takeoffRatio b e mach dP * e.maxThrust * e.number

/-- `Thrust.climb`, `thrust.py:179-245`. All three segments are evaluated, `where`
selects. -/
def climb (tas alt roc dT : α) : α :=
  let roc := b.abs roc
  let h := alt * ft
  let tas := b.maximum 10.0 tas
  let mach := tas2mach b (tas * kts) h dT
  let vcas := tas2cas b (tas * kts) h dT
  let P := pressure b h dT
  let P10 := pressure b (10000.0 * ft) dT
  let Pcr := pressure b (e.cruiseAlt * ft) dT
  let Fcr := e.cruiseThrust * e.number
  let vcas_ref := mach2cas b e.cruiseMach (e.cruiseAlt * ft) dT
  let d := dfunc (mach / e.cruiseMach)
  let bcoef := b.power (mach / e.cruiseMach) (-0.11)
  let ratio_seg3 := d * b.log (P / Pcr) + bcoef
  let a := b.power (vcas / vcas_ref) (-0.1)
  let n := nfunc roc
  let ratio_seg2 := a * b.power (P / Pcr) (-0.355 * (vcas / vcas_ref) + n)
  let F10 := Fcr * a * b.power (P10 / Pcr) (-0.355 * (vcas / vcas_ref) + n)
  let m := mfunc (vcas / vcas_ref) roc
  let ratio_seg1 := m * (P / Pcr) + (F10 / Fcr - m * (P10 / Pcr))
  let ratio := b.whereGt alt 30000.0 ratio_seg3 (b.whereGt alt 10000.0 ratio_seg2 ratio_seg1)
  ratio * Fcr

/-- `Thrust.cruise`, `thrust.py:165-177`. -/
def cruise (tas alt dT : α) : α := climb b e tas alt 0.0 dT

/-- `Thrust.descent_idle`, `thrust.py:247-262`. -/
def descentIdle (tas alt dT : α) : α := 0.07 * takeoff b e tas alt dT

end Verif.Thrust
