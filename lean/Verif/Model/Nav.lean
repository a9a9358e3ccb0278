import Verif.Model.Geo
import Verif.Model.Registry
import Verif.Model.Filters

/-!
# `openap/extra/nav.py`: airports and fixes

`/repo/openap/extra/nav.py:1-140`. A table is the list of its rows in file order. Of an airport the
columns `icao`, `lat`, `lon`, `alt` and `country` are kept (`name` and `location` are carried through
by the code in the same way as `country`). Positions asked for are real numbers (no NaN).
-/

namespace Verif.Nav
open Verif Verif.Tables Verif.Registry Verif.Geo Verif.Filters

/-- A row of `airports.csv` as text and numbers. -/
structure AirportRow where
  icao : Str
  lat : ℝ
  lon : ℝ
  alt : ℝ
  country : Str

/-- A row of `fix.dat`. -/
structure FixRow where
  lat : ℝ
  lon : ℝ
  name : Str

/-- The record returned for an airport; a text cell is `none` when pandas made it a missing value. -/
structure Airport where
  icao : Option Str
  lat : ℝ
  lon : ℝ
  alt : ℝ
  country : Option Str

/-- A fix; its name is `none` when pandas made it a missing value. -/
structure Fix where
  lat : ℝ
  lon : ℝ
  name : Option Str

/-- The cells `pandas.read_csv` turns into missing values unless told otherwise (`na_values`
defaults; neither call in `nav.py:19-32` changes them): the empty cell, `#N/A`, `#N/A N/A`, `#NA`,
`-1.#IND`, `-1.#QNAN`, `-NaN`, `-nan`, `1.#IND`, `1.#QNAN`, `<NA>`, `N/A`, `NA`, `NULL`, `NaN`,
`None`, `n/a`, `nan`, `null`. -/
def naValues : List Str :=
  [[], [35, 78, 47, 65], [35, 78, 47, 65, 32, 78, 47, 65], [35, 78, 65],
   [45, 49, 46, 35, 73, 78, 68], [45, 49, 46, 35, 81, 78, 65, 78], [45, 78, 97, 78],
   [45, 110, 97, 110], [49, 46, 35, 73, 78, 68], [49, 46, 35, 81, 78, 65, 78], [60, 78, 65, 62],
   [78, 47, 65], [78, 65], [78, 85, 76, 76], [78, 97, 78], [78, 111, 110, 101], [110, 47, 97],
   [110, 97, 110], [110, 117, 108, 108]]

/-- A text cell after `read_csv`. -/
def cell (s : Str) : Option Str := if naValues.contains s then none else some s

/-- `_read_airport`, `nav.py:31-32`, on one row. -/
def readAirport (r : AirportRow) : Airport := ⟨cell r.icao, r.lat, r.lon, r.alt, cell r.country⟩

/-- `_read_fix`, `nav.py:19-28`, on one row. -/
def readFix (r : FixRow) : Fix := ⟨r.lat, r.lon, cell r.name⟩

/-- `airport`, `nav.py:35-56`: the first row whose code is the request in upper case. A missing code
equals nothing. -/
def airport (table : List Airport) (name : Str) : Option Airport :=
  let NAME := upper name
  let df := table.filter fun a => a.icao == some NAME
  match df with
  | [] => none
  | a :: _ => some a

/-- `Series.between(lo, hi)`: both ends included. -/
noncomputable def between (x lo hi : ℝ) : Bool := decide (lo ≤ x ∧ x ≤ hi)

/-- `numpy.argmin` of a non-empty array: the first position of the smallest entry. -/
noncomputable def argmin : List ℝ → ℕ
  | [] => 0
  | x :: xs => if xs = [] ∨ x ≤ xs.getD (argmin xs) 0 then 0 else argmin xs + 1

/-- `closest_airport`, `nav.py:59-89`: outer `none` when the search box is empty, otherwise the code. -/
noncomputable def closestAirport (table : List Airport) (lat lon : ℝ) : Option (Option Str) :=
  let df := table.filter fun a =>
    between a.lat (lat - 2) (lat + 2) && between a.lon (lon - 2) (lon + 2)
  if df.isEmpty then none
  else
    let dist2 := df.map fun a => (a.lat - lat) ^ 2 + (a.lon - lon) ^ 2
    let idx := argmin dist2
    (df[idx]?).map (·.icao)

/-- `fix`, `nav.py:92-109`: `iloc[0]` of an empty selection raises IndexError. The Python list
`[lat, lon, name]` is the record. -/
def fix (table : List Fix) (name : Str) : Except PyError Fix :=
  let NAME := upper name
  match table.filter fun f => f.name == some NAME with
  | [] => .error .indexError
  | f :: _ => .ok f

/-- `closest_fix`, `nav.py:112-140`: `argmin` of an empty array raises ValueError; `int` truncates the
distance. -/
noncomputable def closestFix (table : List Fix) (lat lon : ℝ) : Except PyError (Fix × ℤ) :=
  let chunk := table.filter fun f =>
    between f.lat (lat - 1) (lat + 1) && between f.lon (lon - 1) (lon + 1)
  let distances := chunk.map fun f => distance np lat lon f.lat f.lon 0
  if distances.isEmpty then .error .valueError
  else
    let idx := argmin distances
    match chunk[idx]? with
    | none => .error .indexError
    | some f => .ok (f, pyInt (distances.getD idx 0))

/-! ### Files and the module globals -/

/-- The two data files. -/
structure Files where
  airports : List AirportRow
  fixes : List FixRow

/-- The files on disk, the module global `fixes` (`nav.py:10`). The global `airports`
(`nav.py:11`) is assigned by `closest_airport` (`nav.py:72-73`) but never read before being
assigned again: the test `isinstance(airport, pd.DataFrame)` (`nav.py:48`, `72`) looks at the function
`airport`, not at the variable, and is always false. -/
structure Session where
  files : Files
  fixes : Option (List Fix)

/-- A call of one of the functions, or a replacement of the data files. -/
inductive Op where
  | airport (name : Str)
  | closestAirport (lat lon : ℝ)
  | fix (name : Str)
  | closestFix (lat lon : ℝ)
  | replace (files : Files)

/-- What a call gives back. -/
inductive Answer where
  | airport (a : Option Airport)
  | closestAirport (a : Option (Option Str))
  | fix (f : Except PyError Fix)
  | closestFix (f : Except PyError (Fix × ℤ))
  | nothing

/-- The global `fixes` after `nav.py:104-105`, `126-127`. -/
def loadFixes (s : Session) : List Fix :=
  match s.fixes with
  | some t => t
  | none => s.files.fixes.map readFix

/-- One call: the airport functions read the file every time (`nav.py:48-49`, `72-73`), the fix
functions once (`nav.py:104-105`, `126-127`). -/
noncomputable def step (s : Session) : Op → Answer × Session
  | .airport name => (.airport (airport (s.files.airports.map readAirport) name), s)
  | .closestAirport lat lon =>
    (.closestAirport (closestAirport (s.files.airports.map readAirport) lat lon), s)
  | .fix name => (.fix (fix (loadFixes s) name), { s with fixes := some (loadFixes s) })
  | .closestFix lat lon =>
    (.closestFix (closestFix (loadFixes s) lat lon), { s with fixes := some (loadFixes s) })
  | .replace files => (.nothing, { s with files := files })

/-- The session after a sequence of calls. -/
noncomputable def run (s : Session) (ops : List Op) : Session := ops.foldl (fun s o => (step s o).2) s

end Verif.Nav
