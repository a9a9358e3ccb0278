import Verif.Prelude.Backend

/-!
# `openap/geo.py`

Class `Geo` (`/repo/openap/geo.py:38-248`), term by term, over an arbitrary carrier and
backend. The module-level wrappers (lines 258-320) call the same methods.
-/

namespace Verif.Geo

variable {α : Type} [Add α] [Sub α] [Mul α] [Div α] [Neg α] [OfScientific α] [Pow α ℕ]
variable (b : Backend α)

/-- Mean earth radius, `geo.py:30`. -/
def rEarth {α : Type} [OfScientific α] : α := 6371000.0

/-- `deg2rad = b.pi / 180.0` (`geo.py:72`, `100`, `131`). -/
def deg2rad : α := b.pi / 180.0

/-- `rad2deg = 180.0 / b.pi` (`geo.py:101`, `132`). -/
def rad2deg : α := 180.0 / b.pi

/-- `Geo.distance`, `geo.py:58-85`. -/
def distance (lat1 lon1 lat2 lon2 h : α) : α :=
  let lat1_r := lat1 * deg2rad b
  let lon1_r := lon1 * deg2rad b
  let lat2_r := lat2 * deg2rad b
  let lon2_r := lon2 * deg2rad b
  let dlon := lon2_r - lon1_r
  let dlat := lat2_r - lat1_r
  let a := b.sin (dlat / 2.0) ^ 2 + b.cos lat1_r * b.cos lat2_r * b.sin (dlon / 2.0) ^ 2
  let c := 2.0 * b.arcsin (b.sqrt a)
  c * (rEarth + h)

/-- `Geo.bearing`, `geo.py:87-113`. -/
def bearing (lat1 lon1 lat2 lon2 : α) : α :=
  let lat1_r := lat1 * deg2rad b
  let lon1_r := lon1 * deg2rad b
  let lat2_r := lat2 * deg2rad b
  let lon2_r := lon2 * deg2rad b
  let x := b.sin (lon2_r - lon1_r) * b.cos lat2_r
  let y := b.cos lat1_r * b.sin lat2_r - b.sin lat1_r * b.cos lat2_r * b.cos (lon2_r - lon1_r)
  let initial_bearing := b.arctan2 x y * rad2deg b
  b.fmod (initial_bearing + 360.0) 360.0

/-- `Geo.latlon`, `geo.py:115-147`: `(latitude, longitude)` in degrees. -/
def latlon (lat1 lon1 d brg h : α) : α × α :=
  let lat1_r := lat1 * deg2rad b
  let lon1_r := lon1 * deg2rad b
  let brg_r := brg * deg2rad b
  let lat2 := b.arcsin (b.sin lat1_r * b.cos (d / (rEarth + h)) +
    b.cos lat1_r * b.sin (d / (rEarth + h)) * b.cos brg_r)
  let lon2 := lon1_r + b.arctan2
    (b.sin brg_r * b.sin (d / (rEarth + h)) * b.cos lat1_r)
    (b.cos (d / (rEarth + h)) - b.sin lat1_r * b.sin lat2)
  (lat2 * rad2deg b, lon2 * rad2deg b)

/-- The calendar fields that `solar_zenith_angle` reads from a timestamp
(`geo.py:171-202`): day of year, hour, minute, second. Reading them from a `datetime`
(fields taken as they are, no time-zone conversion) or from a Unix time via
`datetime.fromtimestamp(t, tz=utc)` is Python library behaviour and not modelled. -/
structure Stamp (α : Type) where
  yday : α
  hour : α
  minute : α
  second : α

/-- `hour_utc`, `geo.py:178`, `187`, `194`, `202`. -/
def Stamp.hourUtc (t : Stamp α) : α := t.hour + t.minute / 60.0 + t.second / 3600.0

/-- Day angle `gamma`, `geo.py:205`. -/
def dayAngle (t : Stamp α) : α := 2.0 * b.pi * (t.yday - 1.0) / 365.0

/-- Solar declination in radians, `geo.py:207-215`. -/
def declination (t : Stamp α) : α :=
  let g := dayAngle b t
  0.006918 - 0.399912 * b.cos g + 0.070257 * b.sin g - 0.006758 * b.cos (2.0 * g)
    + 0.000907 * b.sin (2.0 * g) - 0.002697 * b.cos (3.0 * g) + 0.00148 * b.sin (3.0 * g)

/-- Equation of time in minutes, `geo.py:218-224`. -/
def eot (t : Stamp α) : α :=
  let g := dayAngle b t
  229.18 * (0.000075 + 0.001868 * b.cos g - 0.032077 * b.sin g - 0.014615 * b.cos (2.0 * g)
    - 0.040849 * b.sin (2.0 * g))

/-- `cos_zenith` before clamping, `geo.py:227-241`. The method uses NumPy directly, so
`b` is only ever `np` here; `np.deg2rad x = x * (pi / 180)`. -/
def cosZenith (lat lon : α) (t : Stamp α) : α :=
  let lat_rad := lat * deg2rad b
  let time_offset := eot b t + 4.0 * lon
  let solar_time := t.hourUtc * 60.0 + time_offset
  let hour_angle_deg := solar_time / 4.0 - 180.0
  let hour_angle := hour_angle_deg * deg2rad b
  b.sin lat_rad * b.sin (declination b t) +
    b.cos lat_rad * b.cos (declination b t) * b.cos hour_angle

/-- `Geo.solar_zenith_angle`, `geo.py:149-248`. -/
def solarZenith (lat lon : α) (t : Stamp α) : α :=
  b.arccos (b.clip (cosZenith b lat lon t) (-1.0) 1.0) * rad2deg b

end Verif.Geo
