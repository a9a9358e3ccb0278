import Verif.Model.Fuzzy

/-!
# Flight phase identification

`/repo/openap/phase.py`. Time stamps are reals; altitude, speed and rate of climb are arrays of
reals or NaN (missing values). Plotting (`plot_logics`) is left out. `ts` is assumed to be a NumPy
array (the code subtracts a scalar from it).
-/

namespace Verif.Phase
open Verif Verif.Fuzzy

/-- The values of `state_lable_map` (`phase.py:39`) and the initial `"NA"`. -/
inductive Label where
  | GND | CL | DE | CR | LVL | NA
  deriving DecidableEq, Repr

/-- Attributes of a `FlightPhase` object that change (`phase.py:41-44`, `64`); `ndata` is not set
by `__init__`. -/
structure Obj where
  ts : Option (List ℝ) := none
  alt : Option (List NR) := none
  spd : Option (List NR) := none
  roc : Option (List NR) := none
  ndata : Option ℕ := none

/-- `np.arange(start, …, step)` with `n` points. -/
noncomputable def arange (start step : ℝ) (n : ℕ) : List ℝ :=
  (List.range n).map fun i : ℕ => start + (i : ℝ) * step

/-- `alt_range = np.arange(0, 40000, 1)`, `phase.py:16`. -/
noncomputable def altRange : List ℝ := arange 0 1 40000
/-- `roc_range = np.arange(-4000, 4000, 0.1)`, `phase.py:17`. -/
noncomputable def rocRange : List ℝ := arange (-4000) 0.1 80000
/-- `spd_range = np.arange(0, 600, 1)`, `phase.py:18`. -/
noncomputable def spdRange : List ℝ := arange 0 1 600
/-- `states = np.arange(0, 6, 0.01)`, `phase.py:19`. -/
noncomputable def states : List ℝ := arange 0 0.01 600

/-- `alt_gnd`, `phase.py:21`. -/
noncomputable def altGnd : List ℝ := altRange.map fun x => zmfAt x 0 200
/-- `alt_lo`, `phase.py:22`. -/
noncomputable def altLo : List ℝ := altRange.map fun x => gaussmf x 10000 10000
/-- `alt_hi`, `phase.py:23`. -/
noncomputable def altHi : List ℝ := altRange.map fun x => gaussmf x 35000 20000
/-- `roc_zero`, `phase.py:25`. -/
noncomputable def rocZero : List ℝ := rocRange.map fun x => gaussmf x 0 100
/-- `roc_plus`, `phase.py:26`. -/
noncomputable def rocPlus : List ℝ := rocRange.map fun x => smfAt x 10 1000
/-- `roc_minus`, `phase.py:27`. -/
noncomputable def rocMinus : List ℝ := rocRange.map fun x => zmfAt x (-1000) (-10)
/-- `spd_hi`, `phase.py:29`. -/
noncomputable def spdHi : List ℝ := spdRange.map fun x => gaussmf x 600 100
/-- `spd_md`, `phase.py:30`. -/
noncomputable def spdMd : List ℝ := spdRange.map fun x => gaussmf x 300 100
/-- `spd_lo`, `phase.py:31`. -/
noncomputable def spdLo : List ℝ := spdRange.map fun x => gaussmf x 0 50

/-- `set_trajectory`, `phase.py:46-66`: result and the object afterwards. -/
noncomputable def setTrajectory (o : Obj) (ts : List ℝ) (alt spd roc : List NR) :
    Except PyError Unit × Obj :=
  match ts with
  | [] => (.error .indexError, o)
  | t0 :: _ =>
    let o := { o with ts := some (ts.map (· - t0)), alt := some alt, spd := some spd,
                      roc := some roc }
    if ts.length = alt.length ∧ alt.length = spd.length ∧ spd.length = roc.length then
      (.ok (), { o with ndata := some ts.length })
    else (.error .runtimeError, o)

/-- Boolean indexing `l[mask]`; NumPy raises when the lengths differ. -/
def select {β : Type} (mask : List Bool) (l : List β) : Except PyError (List β) :=
  if mask.length = l.length then .ok (((l.zip mask).filter Prod.snd).map Prod.fst)
  else .error .indexError

/-- `np.mean` of a non-empty array with NaN. -/
noncomputable def meanNR (l : List NR) : NR := l.foldl (· + ·) (.val 0) / .val l.length

open Classical in
/-- Python's `min(a, b)`: `a` unless `b < a`. -/
noncomputable def pyMin (a b : NR) : NR := if b < a then b else a
open Classical in
/-- Python's `max(a, b)`: `a` unless `b > a`. -/
noncomputable def pyMax (a b : NR) : NR := if a < b then b else a

/-- `max(min(v, r[-1]), r[0])`, `phase.py:101-108`. -/
noncomputable def clamp (r : List ℝ) (v : NR) : NR :=
  pyMax (pyMin v (.val (r.getLastD 0))) (.val (r.headD 0))

/-- `fuzzy.interp_membership(r, mf, v)` for a value that may be NaN. -/
noncomputable def level (r mf : List ℝ) : NR → NR
  | .val x => .val (interpMembership r mf x)
  | .nan => .nan

/-- Python's `min(a, b, c)`. -/
noncomputable def pyMin3 (a b c : NR) : NR := pyMin (pyMin a b) c

/-- `np.fmin(rule, state)` for a real `state`: NaN is ignored. -/
noncomputable def fminR : NR → ℝ → ℝ
  | .val r, s => min r s
  | .nan, s => s

/-- The five rules, `phase.py:110-141`, for clamped window means. -/
noncomputable def rules (alt spd roc : NR) : List NR :=
  let altGnd := level altRange altGnd alt
  let altLo := level altRange altLo alt
  let altHi := level altRange altHi alt
  let spdHi := level spdRange spdHi spd
  let spdMd := level spdRange spdMd spd
  let spdLo := level spdRange spdLo spd
  let zero := level rocRange rocZero roc
  let plus := level rocRange rocPlus roc
  let minus := level rocRange rocMinus roc
  [pyMin3 altGnd zero spdLo, pyMin3 altLo plus spdMd, pyMin3 altLo minus spdMd,
   pyMin3 altHi zero spdHi, pyMin3 altLo zero spdMd]

/-- `aggregated`, `phase.py:143-154`, over the five state curves of `phase.py:33-37`. -/
noncomputable def aggregated (rs : List NR) : List ℝ :=
  states.map fun x => npMax
    (rs.zipIdx.map fun p => fminR p.1 (gaussmf x ((p.2 : ℝ) + 1) 0.1))

/-- Python's `round`: nearest integer, ties to even. -/
noncomputable def pyRound (x : ℝ) : ℤ :=
  let n := ⌊x⌋
  let r := x - n
  if r < 1 / 2 then n else if 1 / 2 < r then n + 1 else if n % 2 = 0 then n else n + 1

/-- `state_lable_map[state]`, `phase.py:39`, `164`. -/
def labelOf (state : ℤ) : Except PyError Label :=
  if state = 1 then .ok .GND else if state = 2 then .ok .CL else if state = 3 then .ok .DE
  else if state = 4 then .ok .CR else if state = 5 then .ok .LVL else .error .keyError

/-- From window means to the label, `phase.py:100-164`. -/
noncomputable def windowLabel (alt spd roc : NR) : Except PyError Label := do
  let alt := clamp altRange (clamp altRange alt)
  let spd := clamp spdRange (clamp spdRange spd)
  let roc := clamp rocRange (clamp rocRange roc)
  let raw ← defuzz states (aggregated (rules alt spd roc)) "lom".toList
  let state := pyRound raw
  let state := if 6 < state then 6 else state
  let state := if state < 1 then 1 else state
  labelOf state

/-- `l[a:b] = r` on a Python list, for `0 ≤ a` and `0 ≤ b`. -/
def sliceAssign {β : Type} (l : List β) (a b : ℕ) (r : List β) : List β :=
  l.take a ++ r ++ l.drop (max a b)

/-- One turn of the loop over the windows, `phase.py:89-165`. -/
noncomputable def windowStep (n : ℕ) (tws : List ℤ) (alt spd roc : List NR) (labels : List Label)
    (tw : ℕ) : Except PyError (List Label) := do
  if (tw : ℤ) ∈ tws then
    let mask := tws.map fun w => decide (w = (tw : ℤ))
    let idxchk ← select mask (List.range n)
    let altchk ← select mask alt
    let spdchk ← select mask spd
    let rocchk ← select mask roc
    let label ← windowLabel (meanNR altchk) (meanNR spdchk) (meanNR rocchk)
    if 0 < idxchk.length then
      pure (sliceAssign labels (idxchk.headD 0) (idxchk.getLastD 0 + 1)
        (List.replicate idxchk.length label))
    else pure labels
  else pure labels

/-- `max(twindows)` of a non-empty list. -/
def maxInt : List ℤ → ℤ
  | [] => 0
  | x :: xs => xs.foldl max x

/-- `phaselabel(twindow)`, `phase.py:68-167`; `twindow` is not 0. `ts // twindow` is the floor of
the quotient. -/
noncomputable def phaselabel (o : Obj) (twindow : ℝ := 60) : Except PyError (List Label) := do
  let some ts := o.ts | .error .runtimeError
  let some n := o.ndata | .error .attributeError
  let tws := ts.map fun t => ⌊t / twindow⌋
  (List.range (maxInt tws).toNat).foldlM
    (windowStep n tws (o.alt.getD []) (o.spd.getD []) (o.roc.getD [])) (List.replicate n .NA)

/-! ## Phase indices -/

open Classical in
/-- First loop of `_get_to_ic`, `phase.py:214-221`: index of the last sample of the leading run
below 1500 ft, `e` so far, `i` the next index. -/
noncomputable def lowPrefix : List ℝ → ℕ → ℕ → ℕ
  | [], _, e => e
  | a :: as, i, e => if a < 1500 then lowPrefix as (i + 1) i else e

open Classical in
/-- Second loop, `phase.py:224-232`: walks `i = k - 1, …, 0`. -/
noncomputable def toStart (spd : List ℝ) : ℕ → ℕ → ℝ → ℕ
  | 0, s, _ => s
  | k + 1, s, tmp =>
    let v := spd.getD k 0
    if v < 30 ∧ tmp < v then s else if v < 5 then s else toStart spd k k v

open Classical in
/-- `_get_to_ic`, `phase.py:212-257`, for a trajectory accepted by `set_trajectory`. -/
noncomputable def getToIc (ts alt spd : List ℝ) : Option (ℕ × ℕ × ℕ) :=
  let iend := lowPrefix alt 0 0
  let istart := toStart spd iend 0 (spd.getD iend 0)
  if 300 < ts.getD iend 0 - ts.getD istart 0 then none
  else if (iend : ℤ) - istart < 10 then none
  else if alt.getD iend 0 < 200 then none
  else
    let ilof := ((List.range' (istart + 1) (iend - (istart + 1))).find?
      fun i => 10 < |alt.getD i 0 - alt.getD (i - 1) 0|).getD istart
    if (ilof : ℤ) - istart < 5 then none else some (istart, ilof, iend + 1)

open Classical in
/-- First loop of `_get_fa_ld`, `phase.py:264-268`: walks `i = k - 1, …, 0`. -/
noncomputable def lowSuffix (alt : List ℝ) : ℕ → ℕ → ℕ
  | 0, s => s
  | k + 1, s => if alt.getD k 0 < 1500 then lowSuffix alt k k else s

open Classical in
/-- Second loop, `phase.py:271-279`: `k` samples from index `i` on. -/
noncomputable def ldEnd (spd : List ℝ) : ℕ → ℕ → ℕ → ℝ → ℕ
  | 0, _, e, _ => e
  | k + 1, i, e, tmp =>
    let v := spd.getD i 0
    if v ≤ 50 ∧ tmp ≤ v then e else if v < 30 then e else ldEnd spd k (i + 1) i v

open Classical in
/-- `_get_fa_ld`, `phase.py:259-304`. -/
noncomputable def getFaLd (alt spd : List ℝ) : Option (ℕ × ℕ × ℕ) :=
  let n := alt.length
  let istart := lowSuffix alt n 0
  let iend := ldEnd spd (n - istart) istart 0 (spd.getD istart 0)
  if alt.getD istart 0 < 100 then none
  else
    let ild := ((List.range' istart (iend - 1 - istart)).reverse.find?
      fun i => 10 < |alt.getD i 0 - alt.getD (i + 1) 0|).getD iend
    if (ild : ℤ) - istart < 5 ∨ (iend : ℤ) - ild < 5 then none
    else some (istart, ild, iend + 1)

/-- Indices of a label, `np.where(labels == l)[0]`. -/
def indicesOf (l : Label) (labels : List Label) : List ℕ :=
  (List.range labels.length).filter fun i => decide (labels[i]? = some l)

/-- `_get_cl`, `phase.py:306-317`. -/
def getCl (labels : List Label) : Option (ℕ × ℕ) :=
  if Label.CL ∈ labels then
    some ((indicesOf .CL labels).headD 0, (indicesOf .CL labels).getLastD 0)
  else none

/-- `_get_de`, `phase.py:319-335`. -/
def getDe (labels : List Label) : Option (ℕ × ℕ × Bool) :=
  if Label.DE ∈ labels then
    let s := (indicesOf .DE labels).headD 0
    let e := (indicesOf .DE labels).getLastD 0
    some (s, e, !decide (Label.LVL ∈ (labels.take e).drop s))
  else none

/-- `_get_cr`, `phase.py:337-358`. -/
def getCr (labels : List Label) : Option (ℕ × ℕ) :=
  match getCl labels, getDe labels with
  | some cl, some de => if (de.1 : ℤ) - cl.2 < 200 then none else some (cl.2, de.1)
  | _, _ => none

/-- The dictionary of `flight_phase_indices`, `phase.py:402-411`. -/
structure Indices where
  TO : Option ℕ
  IC : Option ℕ
  CL : Option ℕ
  CR : Option ℕ
  DE : Option ℕ
  FA : Option ℕ
  LD : Option ℕ
  END : ℕ

/-- `set_trajectory(ts, alt, spd, roc)` on a new object and then `flight_phase_indices()`,
`phase.py:360-413`, for numbers without missing values; `phaselabel` is called with its default
window. -/
noncomputable def flightPhaseIndices (ts alt spd roc : List ℝ) : Except PyError Indices := do
  let (res, o) := setTrajectory {} ts (alt.map .val) (spd.map .val) (roc.map .val)
  res
  let toic := getToIc (o.ts.getD []) alt spd
  let labels ← phaselabel o
  let cl := getCl labels
  let de := getDe labels
  let fald := getFaLd alt spd
  pure {
    TO := toic.map (·.1)
    IC := toic.map (·.2.1)
    CL := match toic with
      | some t => some t.2.2
      | none => cl.map (·.1)
    CR := cl.map (·.2)
    DE := de.map (·.1)
    FA := match fald with
      | some f => some f.1
      | none => de.map (·.2.1)
    LD := fald.map (·.2.1)
    END := match fald with
      | some f => f.2.2
      | none => ts.length }

end Verif.Phase
