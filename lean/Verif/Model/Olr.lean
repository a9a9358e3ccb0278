import Verif.Prelude.Backend
import Verif.Model.Tables
import Mathlib.Data.List.Sort
import Verif.Prelude.Py

/-!
# `contrail.load_olr`

`/repo/openap/contrail.py:378-441`. The opened netCDF file is a value of type `Dataset`: data
variables with named dimensions and one-dimensional numeric coordinates (times as numbers).
`DataArray.interp(..., method="linear")` is xarray's: every named dimension is replaced by its
request, arrays are independent axes, dimensions keep the order of the variable, requests outside
the coordinate give NaN, coordinates are sorted first. Stored values are numbers (missing values
in the file are not modelled), a coordinate named like a data variable, a dimension without
coordinate values and the failure of `import xarray` are not modelled.
-/

namespace Verif.Olr
open Verif.Tables

/-- A data variable: dimensions with their lengths in stored order, values by index. -/
structure Var where
  dims : List (Str × ℕ)
  values : List ℕ → ℝ

/-- `xr.open_dataset(filepath)`. -/
structure Dataset where
  vars : List (Str × Var)
  coords : List (Str × List ℝ)

/-- A request along one dimension: one number or a one-dimensional array. -/
inductive Arg where
  | scalar : ℝ → Arg
  | array : List ℝ → Arg

/-- `"olr"`. -/
def sOlr : Str := [111, 108, 114]
/-- `"OLR"`. -/
def sOLR : Str := [79, 76, 82]
/-- `"olr_avg"`. -/
def sOlrAvg : Str := [111, 108, 114, 95, 97, 118, 103]
/-- `"toa_lw_all_daily"`. -/
def sToa : Str := [116, 111, 97, 95, 108, 119, 95, 97, 108, 108, 95, 100, 97, 105, 108, 121]
/-- `"lat"`. -/
def sLat : Str := [108, 97, 116]
/-- `"latitude"`. -/
def sLatitude : Str := [108, 97, 116, 105, 116, 117, 100, 101]
/-- `"lon"`. -/
def sLon : Str := [108, 111, 110]
/-- `"longitude"`. -/
def sLongitude : Str := [108, 111, 110, 103, 105, 116, 117, 100, 101]
/-- `"time"`. -/
def sTime : Str := [116, 105, 109, 101]

/-- One-dimensional linear interpolation over nodes in increasing order. -/
noncomputable def linear (x : ℝ) : List (ℝ × NR) → NR
  | (a, f) :: (c, g) :: rest =>
    if x < a then .nan
    else if x = a then f
    else if x < c then f + (g - f) / (.val (c - a)) * .val (x - a)
    else linear x ((c, g) :: rest)
  | [(a, f)] => if x = a then f else .nan
  | [] => .nan

/-- Interpolation along one coordinate: sort, then interpolate. -/
noncomputable def interp1 (nodes : List ℝ) (f : ℕ → NR) (x : ℝ) : NR :=
  linear x ((nodes.zipIdx.insertionSort fun p q => p.1 ≤ q.1).map fun p => (p.1, f p.2))

/-- What happens to one dimension of the variable. -/
inductive Axis where
  | keep : ℕ → Axis
  | point : List ℝ → ℝ → Axis
  | line : List ℝ → List ℝ → Axis

/-- Length of the output axis, if there is one. -/
def Axis.length : Axis → Option ℕ
  | .keep n => some n
  | .point _ _ => none
  | .line _ xs => some xs.length

/-- Output value at an output index. -/
noncomputable def evalAt : List Axis → (List ℕ → NR) → List ℕ → NR
  | [], v, _ => v []
  | .keep _ :: r, v, i :: is => evalAt r (fun js => v (i :: js)) is
  | .point nodes x :: r, v, is => interp1 nodes (fun k => evalAt r (fun js => v (k :: js)) is) x
  | .line nodes xs :: r, v, i :: is =>
    interp1 nodes (fun k => evalAt r (fun js => v (k :: js)) is) (xs.getD i 0)
  | _, _, [] => .nan

/-- A NumPy array. -/
structure Out where
  shape : List ℕ
  get : List ℕ → NR

/-- The axis made from one dimension of the variable. -/
noncomputable def axisFor (ds : Dataset) (ix : List (Option Str × Arg)) (d : Str × ℕ) :
    Except PyError Axis :=
  match ix.lookup (some d.1) with
  | none => .ok (Axis.keep d.2)
  | some a =>
    match ds.coords.lookup d.1 with
    | none => .error .keyError
    | some nodes =>
      match a with
      | .scalar x => .ok (Axis.point nodes x)
      | .array xs => .ok (Axis.line nodes xs)

/-- `ds[olr_var].interp(indexers, method="linear").values`. A key that is no dimension of the
variable is a `ValueError`. -/
noncomputable def interp (ds : Dataset) (v : Var) (ix : List (Option Str × Arg)) :
    Except PyError Out := do
  if ix.any fun p => !(v.dims.map fun d => some d.1).contains p.1 then .error .valueError
  else
    let axes ← v.dims.mapM (axisFor ds ix)
    return ⟨axes.filterMap Axis.length, evalAt axes fun is => .val (v.values is)⟩

/-- `load_olr`, `contrail.py:378-441`. -/
noncomputable def loadOlr (ds : Dataset) (lat lon time : Arg) : Except PyError Out :=
  let olr_var := [sOlr, sOLR, sOlrAvg, sToa].find? fun n => (ds.vars.map (·.1)).contains n
  match olr_var with
  | none => .error .valueError
  | some name =>
    let lat_coord := [sLat, sLatitude].find? fun n => (ds.coords.map (·.1)).contains n
    let lon_coord := [sLon, sLongitude].find? fun n => (ds.coords.map (·.1)).contains n
    match ds.vars.lookup name with
    | none => .error .keyError
    | some v => interp ds v [(lat_coord, lat), (lon_coord, lon), (some sTime, time)]

end Verif.Olr
