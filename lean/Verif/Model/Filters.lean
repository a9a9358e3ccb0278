import Verif.Prelude.Backend
import Verif.Prelude.Py
import Mathlib.LinearAlgebra.Matrix.NonsingularInverse
import Mathlib.Data.Matrix.Mul
import Mathlib.Algebra.Order.Floor.Ring

/-!
# Signal filters

`/repo/openap/extra/filters.py`. Arrays are lists of reals. `filterplot` (plotting) and the SciPy
spline fit inside `Spline.filter` are not modelled; the latter is an argument here.
-/

namespace Verif.Filters
open Verif

open Classical in
/-- `BaseFilter.sortxy`, `filters.py:13-17`. `zip` stops at the shorter list; `list.sort` is a stable
sort by the first component; unpacking `zip(*[])` raises ValueError. -/
noncomputable def sortxy {β : Type} (X : List ℝ) (Y : List β) : Except PyError (List ℝ × List β) :=
  let XY := (X.zip Y).mergeSort fun s t => decide (s.1 ≤ t.1)
  match XY with
  | [] => .error .valueError
  | _ => .ok (XY.map (·.1), XY.map (·.2))

/-- Python's `int` of a float: truncation towards zero. -/
noncomputable def pyInt (x : ℝ) : ℤ := if 0 ≤ x then ⌊x⌋ else ⌈x⌉

/-- Python's `range(a, b)`. -/
def intRange (a b : ℤ) : List ℤ := (List.range (b - a).toNat).map fun k : ℕ => a + (k : ℤ)

open Classical in
/-- The body of the loop of `simplefill`, `filters.py:31-36`: the value at the first index with
`X == x`, or the value carried over. -/
noncomputable def fillValue (X Y : List ℝ) (y : ℝ) (x : ℤ) : ℝ :=
  match X.findIdx? fun t => decide (t = (x : ℝ)) with
  | some i => Y.getD i 0
  | none => y

/-- The loop of `simplefill`, `filters.py:30-38`. -/
noncomputable def fillLoop (X Y : List ℝ) : ℝ → List ℤ → List ℝ
  | _, [] => []
  | y, x :: xs => fillValue X Y y x :: fillLoop X Y (fillValue X Y y x) xs

/-- `BaseFilter.simplefill`, `filters.py:19-40`. -/
noncomputable def simplefill (X Y : List ℝ) : Except PyError (List ℤ × List ℝ) := do
  let (X, Y) ← sortxy X Y
  let full := intRange (pyInt (X.headD 0)) (pyInt (X.getLastD 0 + 1))
  return (full, fillLoop X Y 0 full)

/-! ## Savitzky-Golay -/

/-- The attributes of a `SavitzkyGolay` object. -/
structure SavGol where
  interpolate : Bool
  window : ℕ
  order : ℕ
  deriv : ℤ

/-- `SavitzkyGolay.__init__`, `filters.py:63-79`, for integer arguments. -/
def savgolInit (window order deriv : ℤ) (i : Bool) : Except PyError SavGol :=
  let w := window.natAbs
  let o := order.natAbs
  if w % 2 ≠ 1 ∨ w < 1 then .error .typeError
  else if w < o + 2 then .error .typeError
  else .ok ⟨i, w, o, deriv⟩

/-- The matrix `b`, `filters.py:90-92`: rows `k = -half .. half`, columns `k**0 .. k**order`. -/
noncomputable def vander (half order : ℕ) : Matrix (Fin (2 * half + 1)) (Fin (order + 1)) ℝ :=
  fun i j => ((i : ℝ) - half) ^ (j : ℕ)

/-- `np.linalg.pinv` of a matrix with independent columns (see `Lemmas/SavGol.lean`: this is the
Moore-Penrose inverse, and the only one, for the matrices `b` that occur). -/
noncomputable def pinv {m n : ℕ} (b : Matrix (Fin m) (Fin n) ℝ) : Matrix (Fin n) (Fin m) ℝ :=
  (b.transpose * b)⁻¹ * b.transpose

/-- Position of the Python index `i` in a sequence of length `len`. -/
def pyIndex (len : ℕ) (i : ℤ) : Option ℕ :=
  if 0 ≤ i ∧ i < len then some i.toNat
  else if i < 0 ∧ 0 ≤ i + len then some (i + len).toNat
  else none

/-- `np.linalg.pinv(b).A[self.deriv]`, `filters.py:93`. -/
noncomputable def kernel (half order : ℕ) (deriv : ℤ) : Except PyError (List ℝ) :=
  match pyIndex (order + 1) deriv with
  | none => .error .indexError
  | some d => .ok (List.ofFn fun i => pinv (vander half order) (Fin.ofNat (order + 1) d) i)

/-- The padded signal `Y1`, `filters.py:96-98`. -/
noncomputable def padded (half : ℕ) (Y : List ℝ) : List ℝ :=
  let n := Y.length
  let y0 := Y.headD 0
  let yl := Y.getLastD 0
  ((Y.take (half + 1)).drop 1).reverse.map (fun y => y0 - |y - y0|) ++ Y ++
    ((Y.take (n - 1)).drop (n - half - 1)).reverse.map (fun y => yl + |y - yl|)

/-- `np.convolve(a, v, mode="valid")`: the shorter array is moved, reversed, over the longer one. -/
noncomputable def convolveValid (a v : List ℝ) : List ℝ :=
  let s := if a.length ≤ v.length then a else v
  let l := if a.length ≤ v.length then v else a
  (List.range (l.length - s.length + 1)).map fun j =>
    ((List.range s.length).map fun i => s.getD i 0 * l.getD (j + s.length - 1 - i) 0).sum

/-- `SavitzkyGolay.filter`, `filters.py:81-101`. -/
noncomputable def savgol (f : SavGol) (X Y : List ℝ) : Except PyError (List ℝ × List ℝ) := do
  let (X, Y) ← if f.interpolate then do
      let (X, Y) ← simplefill X Y
      pure (X.map fun t : ℤ => (t : ℝ), Y)
    else sortxy X Y
  let half := (f.window - 1) / 2
  let m ← kernel half f.order f.deriv
  if Y = [] then .error .indexError
  else return (X, convolveValid m (padded half Y))

/-! ## Spline: the weights -/

/-- `scipy.signal.windows.gaussian(25, sigma)` (called at `filters.py:119`). -/
noncomputable def gaussian25 (sigma : ℝ) (j : Fin 25) : ℝ :=
  Real.exp (-((j : ℝ) - 12) ^ 2 / (2 * sigma * sigma))

/-- Boundary handling of `scipy.ndimage.convolve1d` (mode `reflect`): `d c b a | a b c d | d c b a`. -/
def reflect (n : ℕ) (k : ℤ) : ℕ :=
  let r := (k % (2 * n : ℤ)).toNat
  if r < n then r else 2 * n - 1 - r

/-- `convolve1d(series, b / b.sum())`, one output sample, for a symmetric window of 25. -/
noncomputable def smooth25 (sigma : ℝ) (series : List ℝ) (i : ℕ) : ℝ :=
  ∑ j : Fin 25, gaussian25 sigma j / (∑ k, gaussian25 sigma k) *
    series.getD (reflect series.length ((i : ℤ) + 12 - (j : ℕ))) 0

/-- `convolve1d` on the whole array. -/
noncomputable def convolve25 (sigma : ℝ) (series : List ℝ) : List ℝ :=
  (List.range series.length).map (smooth25 sigma series)

open Classical in
/-- `Spline.kernel`, `filters.py:114-123`. -/
noncomputable def splineKernel (series : List ℝ) (sigma : ℝ := 3) : List ℝ × List ℝ :=
  let averages := convolve25 sigma series
  let variances := convolve25 sigma (List.zipWith (fun y a => (y - a) ^ 2) series averages)
  (averages, variances.map fun v => if v = 0 then 1 else v)

/-- `Spline.filter`, `filters.py:125-139`; `fit X Y w` is the function returned by
`UnivariateSpline(X, Y, k=self.k, w=w)`. `np.arange(xmax)` is `0, 1, ..` below `xmax`. -/
noncomputable def splineFilter (interpolate : Bool) (fit : List ℝ → List ℝ → List ℝ → ℝ → ℝ)
    (X Y : List ℝ) : Except PyError (List ℝ × List ℝ) := do
  let (X, Y) ← sortxy X Y
  let var := (splineKernel Y).2
  let spl := fit X Y (var.map fun v => 1 / Real.sqrt v)
  if interpolate then
    let full := (List.range ⌈X.getLastD 0⌉.toNat).map fun k : ℕ => (k : ℝ)
    return (full, full.map spl)
  else return (X, X.map spl)

/-! ## Time-weighted filter -/

/-- `np.sum` over `NR`. -/
noncomputable def nrSum (l : List NR) : NR := l.foldr (· + ·) (.val 0)

/-- `np.average` of a non-empty array. -/
noncomputable def nrAvg (l : List NR) : NR := nrSum l / .val l.length

/-- The Python slice `l[a:b]` for non-negative `a`, `b`. -/
def slice {β : Type} (l : List β) (a b : ℕ) : List β := (l.take b).drop a

/-- The new value at index `i` of `TWF.filter`, `filters.py:161-170`. `YF` is the part of the output
computed so far (`i` values). Division by zero gives `nan`, which stands for every value that is
not a finite number (NumPy gives an infinity or NaN). -/
noncomputable def twfValue (w : ℤ) (X Y : List ℝ) (YF : List NR) (i : ℕ) : Except PyError NR :=
  if (i : ℤ) < w then .ok ((nrAvg (YF.take (i - 1)) + .val (Y.getD i 0)) / .val 2)
  else
    let a := ((i : ℤ) - w).toNat
    let Xwin := (slice X a (i - 1)).reverse
    let Ywin := (slice YF a (i - 1)).reverse
    let inv := List.zipWith (fun later earlier => (NR.val 1) / .val (later - earlier))
      Xwin.tail Xwin.dropLast
    match Ywin with
    | [] => .error .indexError
    | y0 :: rest =>
      let yw := (y0 + nrSum (List.zipWith (· * ·) inv rest)) / (.val 1 + nrSum inv)
      .ok ((yw + .val (Y.getD i 0)) / .val 2)

/-- One iteration of the loop of `TWF.filter`. -/
noncomputable def twfStep (w : ℤ) (X Y : List ℝ) (YF : List NR) (k : ℕ) :
    Except PyError (List NR) := do
  let y ← twfValue w X Y YF (k + 2)
  return YF ++ [y]

/-- `TWF.filter`, `filters.py:152-171`. -/
noncomputable def twf (w : ℤ) (X Y : List ℝ) : Except PyError (List ℝ × List NR) := do
  let (X, Y) ← sortxy X Y
  match Y with
  | [] => .error .indexError
  | [_] => .error .indexError
  | y0 :: y1 :: _ => do
    let YF ← (List.range (X.length - 2)).foldlM (twfStep w X Y) [.val y0, .val y1]
    return (X, YF)

end Verif.Filters
