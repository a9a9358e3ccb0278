import Verif.Model.Nav
import Verif.Data.Airports

/-!
# The shipped airport table

`/repo/openap/data/nav/airports.csv`, decoded from `Verif.Data.Airports` (packed digits, described
there). `lat` and `lon` are kept as multiples of 10⁻⁵ degrees.
-/

namespace Verif.Nav
open Verif.Tables

/-- A row with integer columns. -/
structure IntRow where
  icao : Str
  country : Str
  lat : ℤ
  lon : ℤ
  alt : ℤ

/-- The two decimal digits of `n` at position `k` from the right. -/
def digits2 (n k : ℕ) : ℕ := n / 10 ^ k % 100

/-- One packed row. -/
def decode (n : ℕ) : IntRow where
  icao := [digits2 n 31, digits2 n 29, digits2 n 27, digits2 n 25]
  country := [digits2 n 23, digits2 n 21]
  lat := (n / 10 ^ 13 % 10 ^ 8 : ℕ) - 9000000
  lon := (n / 10 ^ 5 % 10 ^ 8 : ℕ) - 18000000
  alt := (n % 10 ^ 5 : ℕ) - 2000

/-- The shipped rows with integer columns. -/
def shippedInt : List IntRow := Data.Airports.rows.flatten.map decode

/-- The row as `read_csv` sees it. -/
noncomputable def IntRow.toRow (r : IntRow) : AirportRow :=
  ⟨r.icao, (r.lat : ℝ) / 100000, (r.lon : ℝ) / 100000, r.alt, r.country⟩

/-- `airports.csv` as shipped. -/
noncomputable def shippedAirports : List AirportRow := shippedInt.map IntRow.toRow

end Verif.Nav
