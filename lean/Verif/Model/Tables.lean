import Mathlib.Data.Real.Basic

/-!
# Shape of the shipped data tables

Record types for the files under `/repo/openap/data`, holding only the entries some modelled
function reads. Strings are lists of character codes; numbers are exact decimals counted in
units of `10⁻¹⁶` (in the WRAP tables: integers in units of `10⁻⁴`). An empty CSV cell or a
`null`/absent YAML entry is `none`; pandas turns an empty cell into NaN.
-/

namespace Verif.Tables

/-- A string as the list of its character codes. -/
abbrev Str := List ℕ

/-- The four LTO modes. -/
structure Quad where
  idl : ℕ
  app : ℕ
  cout : ℕ
  toff : ℕ
deriving DecidableEq

/-- One row of `data/engine/engines.csv`. -/
structure EngineRow where
  name : Str
  bpr : Option ℕ
  maxThrust : Option ℕ
  cruiseThrust : Option ℕ
  cruiseMach : Option ℕ
  cruiseSfc : Option ℕ
  cruiseAlt : Option ℕ
  ff : Quad
  nox : Quad
  ei_co : Quad
  hc : Quad
deriving DecidableEq

/-- One file of `data/aircraft`. -/
structure AircraftRow where
  mtow : ℕ
  mlw : ℕ
  oew : ℕ
  mfc : ℕ
  vmo : Option ℕ
  mmo : Option ℕ
  ceiling : Option ℕ
  area : ℕ
  span : ℕ
  sweep : ℕ
  tc : Option ℕ
  height : ℕ
  mach : ℕ
  range : Option ℕ
  number : ℕ
  rear : Bool
  default : Str
  options : List Str
deriving DecidableEq

/-- One file of `data/dragpolar`. -/
structure PolarRow where
  cd0 : ℕ
  k : ℕ
  lambdaF : ℕ
  cfc : ℕ
  sfs : ℕ
deriving DecidableEq

/-- One row of `data/fuel/fuel_models.csv`. -/
structure FuelRow where
  typecode : Str
  engineType : Str
  c1 : ℕ
  c2 : ℕ
  c3 : ℕ
deriving DecidableEq

/-- One row of a `data/wrap` table: variable, default, minimum, maximum. -/
structure WrapRow where
  var : Str
  opt : ℤ
  min : ℤ
  max : ℤ
deriving DecidableEq

/-- The number a table entry stands for. -/
noncomputable def real (n : ℕ) : ℝ := n / 10 ^ 16

/-- The number a WRAP table entry stands for. -/
noncomputable def wreal (n : ℤ) : ℝ := n / 10 ^ 4

end Verif.Tables
