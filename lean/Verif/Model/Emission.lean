import Verif.Model.Aero

/-!
# `openap/emission.py`

Methods of class `Emission` (`/repo/openap/emission.py:44-259`), term by term.
-/

namespace Verif.Emission
open Verif.Aero

/-- Number of engines (`emission.py:37`) and the entries of the engine record read by the
methods: fuel flows and emission indices in the order idle, approach, climb-out,
take-off. -/
structure Params (α : Type) where
  number : α
  ff : Fin 4 → α
  nox : Fin 4 → α
  co : Fin 4 → α
  hc : Fin 4 → α

variable {α : Type} [Add α] [Sub α] [Mul α] [Div α] [Neg α] [OfScientific α] [Pow α ℕ]
variable (b : Backend α) (e : Params α)

/-- `_fl2sl`, `emission.py:44-58`: sea-level equivalent fuel flow per engine and the
conversion ratio. -/
def fl2sl (ffac tas alt dT : α) : α × α :=
  let M := tas2mach b (tas * kts) (alt * ft) dT
  let beta := b.exp (0.2 * M ^ 2)
  let theta := (temperature b (alt * ft) dT / 288.15) / beta
  let delta := b.power (1.0 - 0.0019812 * alt / 288.15) 5.255876 / b.power beta 3.5
  let ratio := b.power theta 3.3 / b.power delta 1.02
  let ff_sl := (ffac / e.number) * b.power theta 3.8 / delta * beta
  (ff_sl, ratio)

/-- `co2`, `emission.py:60-72`. -/
def co2 (ffac : α) : α := ffac * 3160.0
/-- `h2o`, `emission.py:74-86`. -/
def h2o (ffac : α) : α := ffac * 1230.0
/-- `soot`, `emission.py:88-100`. -/
def soot (ffac : α) : α := ffac * 0.03
/-- `sox`, `emission.py:102-114`. -/
def sox (ffac : α) : α := ffac * 1.2

/-- `b.interp(ff_sl, [ff_idl, ff_app, ff_co, ff_to], [ei_idl, ei_app, ei_co, ei_to])`,
`emission.py:141-155`, `190-204`, `238-252`. -/
def lto (ei : Fin 4 → α) (ff_sl : α) : α :=
  b.interp ff_sl [e.ff 0, e.ff 1, e.ff 2, e.ff 3] [ei 0, ei 1, ei 2, ei 3]

/-- `nox`, `emission.py:116-164`; `10 ** (-3)` is written `0.001`. -/
def nox (ffac tas alt dT : α) : α :=
  let s := fl2sl b e ffac tas alt dT
  let nox_sl := lto b e e.nox s.1
  let omega := 0.001 * b.exp (-0.0001426 * (alt - 12900.0))
  let nox_fl := nox_sl * b.sqrt (1.0 / s.2) * b.exp (-19.0 * (omega - 0.00634))
  nox_fl * ffac

/-- `co`, `emission.py:166-212`. -/
def co (ffac tas alt dT : α) : α :=
  let s := fl2sl b e ffac tas alt dT
  lto b e e.co s.1 * s.2 * ffac

/-- `hc`, `emission.py:214-259`. -/
def hc (ffac tas alt dT : α) : α :=
  let s := fl2sl b e ffac tas alt dT
  lto b e e.hc s.1 * s.2 * ffac

end Verif.Emission
