import Verif.Prelude.Backend
import Verif.Prelude.Py
import Verif.Model.Tables
import Mathlib.Data.List.Sort
import Mathlib.Data.Real.Archimedean

/-!
# `openap/extra/statistics.py`: fitting distributions

`/repo/openap/extra/statistics.py:9-66`. The data handling is modelled; SciPy's distributions are an
arbitrary `Scipy` record. The example curve (`pdfx`, `pdfy`, `statistics.py:52-60`) and `fitplot`
(`statistics.py:69-89`) only serve plotting and are not modelled.
-/

namespace Verif.Statistics
open Verif Verif.Tables

/-- What `fit` uses of SciPy: `getattr(scipy.stats, model)` may fail, `dist.fit(data, floc=, fscale=)`
may fail or give parameters, `kstest(data, model, params)[0]`. -/
structure Scipy (P : Type) where
  known : Str → Bool
  fit : Str → List ℝ → Option ℝ → Option ℝ → Except PyError P
  ks : List ℝ → Str → P → ℝ

/-- The argument `models`. -/
inductive Models where
  | str (s : Str)
  | list (l : List Str)
  | other

/-- `data[np.isfinite(data)]`, `statistics.py:17`; `nan` stands for everything not finite. -/
def finite (data : List NR) : List ℝ := data.filterMap fun x => match x with
  | .val x => some x
  | .nan => none

/-- `np.percentile(data, q)` with its default linear interpolation; IndexError for no data. -/
noncomputable def percentile (data : List ℝ) (q : ℝ) : Except PyError ℝ :=
  if data = [] then .error .indexError
  else
    let s := data.mergeSort fun a b => decide (a ≤ b)
    let pos := (data.length - 1 : ℝ) * (q / 100)
    let i := ⌊pos⌋₊
    .ok (s.getD i 0 + (s.getD (i + 1) (s.getD i 0) - s.getD i 0) * (pos - i))

/-- `statistics.py:16-19`. -/
noncomputable def clean (data : List NR) : Except PyError (List ℝ) := do
  let d := finite data
  let lo ← percentile d 0.025
  let d1 := d.filter fun x => decide (lo < x)
  let hi ← percentile d1 99.975
  return d1.filter fun x => decide (x < hi)

/-- `min(data)`: ValueError for no data. -/
noncomputable def pyMin : List ℝ → Except PyError ℝ
  | [] => .error .valueError
  | x :: l => .ok (l.foldl min x)

/-- `max(data)`. -/
noncomputable def pyMax : List ℝ → Except PyError ℝ
  | [] => .error .valueError
  | x :: l => .ok (l.foldl max x)

/-- The slice `data[a:-1:1]` (`statistics.py:22`): from index `a` up to but excluding the last. -/
def sliceToLast (data : List ℝ) (a : ℕ) : List ℝ := (data.take (data.length - 1)).drop a

/-- `dist.fit` with the options of `statistics.py:33-38`, `44-49`. -/
def fitDist {P : Type} (sci : Scipy P) (model : Str) (data : List ℝ) (dmin dscale : ℝ) :
    Except PyError P :=
  if model = [110, 111, 114, 109] then sci.fit model data none none
  else if model = [103, 97, 109, 109, 97] then sci.fit model data (some dmin) none
  else sci.fit model data (some dmin) (some dscale)

/-- `result[model] = ...` in a dictionary with insertion order. -/
def setItem {ρ : Type} (d : List (Str × ρ)) (k : Str) (v : ρ) : List (Str × ρ) :=
  if d.any fun e => e.1 == k then d.map fun e => if e.1 == k then (k, v) else e else d ++ [(k, v)]

/-- The loop over the models, `statistics.py:29-64`: parameters and error per model. -/
def fitLoop {P : Type} (sci : Scipy P) (data train test : List ℝ) (dmin dscale : ℝ) :
    List Str → List (Str × P × ℝ) → Except PyError (List (Str × P × ℝ))
  | [], result => .ok result
  | model :: models, result => do
    if !sci.known model then throw .attributeError
    let paramTrain ← fitDist sci model train dmin dscale
    let error := sci.ks test model paramTrain
    let param ← fitDist sci model data dmin dscale
    fitLoop sci data train test dmin dscale models (setItem result model (param, error))

/-- `fit`, `statistics.py:9-66`. -/
noncomputable def fit {P : Type} (sci : Scipy P) (data : List NR) (models : Models) :
    Except PyError (List (Str × P × ℝ)) := do
  let models ← match models with
    | .str s => pure [s]
    | .list l => pure l
    | .other => throw .runtimeError
  let data ← clean data
  let train := sliceToLast data 0
  let test := sliceToLast data 1
  let dmin := (← pyMin data) - 1e-8
  let dmax := (← pyMax data) + 1e-8
  let dscale := dmax - dmin
  fitLoop sci data train test dmin dscale models []

end Verif.Statistics
