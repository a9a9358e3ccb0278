import Verif.Prelude.Backend
import Verif.Prelude.Py

/-!
# Fuzzy membership functions

`/repo/openap/extra/fuzzy.py`. The functions act on arrays element by element; the element
functions `…At` are written over a carrier with a comparison, so that they can be evaluated both on
reals and on `NR` (reals with NaN).
-/

namespace Verif.Fuzzy
open Verif

/-- IEEE comparison: false as soon as one side is NaN. -/
instance : LE NR := ⟨fun x y => match x, y with
  | .val a, .val c => a ≤ c
  | _, _ => False⟩
/-- IEEE comparison: false as soon as one side is NaN. -/
instance : LT NR := ⟨fun x y => match x, y with
  | .val a, .val c => a < c
  | _, _ => False⟩

/-- `gaussmf`, `fuzzy.py:10-22`, one element. -/
noncomputable def gaussmf (x mean sigma : ℝ) : ℝ :=
  Real.exp (-((x - mean) ^ 2) / (2 * sigma ^ 2))

section
variable {α : Type} [Add α] [Sub α] [Mul α] [Div α] [Pow α ℕ] [OfScientific α] [LE α] [LT α]

open Classical in
/-- `zmf`, `fuzzy.py:41-52`, one element: masked assignments in source order. -/
noncomputable def zmfAt (x a b : α) : α :=
  let y : α := 1.0
  let y := if a ≤ x ∧ x < (a + b) / 2.0 then 1.0 - 2.0 * ((x - a) / (b - a)) ^ 2 else y
  let y := if (a + b) / 2.0 ≤ x ∧ x ≤ b then 2.0 * ((x - b) / (b - a)) ^ 2 else y
  if b ≤ x then 0.0 else y

open Classical in
/-- `smf`, `fuzzy.py:71-81`, one element. -/
noncomputable def smfAt (x a b : α) : α :=
  let y : α := 1.0
  let y := if x ≤ a then 0.0 else y
  let y := if a ≤ x ∧ x ≤ (a + b) / 2.0 then 2.0 * ((x - a) / (b - a)) ^ 2 else y
  if (a + b) / 2.0 ≤ x ∧ x ≤ b then 1.0 - 2.0 * ((x - b) / (b - a)) ^ 2 else y

open Classical in
/-- `zmf`, `fuzzy.py:25-52`: `assert a <= b`, then the whole array. -/
noncomputable def zmf (xs : List α) (a b : α) : Except PyError (List α) :=
  if a ≤ b then .ok (xs.map fun x => zmfAt x a b) else .error .assertionError

open Classical in
/-- `smf`, `fuzzy.py:55-81`. -/
noncomputable def smf (xs : List α) (a b : α) : Except PyError (List α) :=
  if a ≤ b then .ok (xs.map fun x => smfAt x a b) else .error .assertionError
end

/-- `np.max` of a non-empty array. -/
noncomputable def npMax : List ℝ → ℝ
  | [] => 0
  | x :: xs => xs.foldl max x

/-- `np.min` of a non-empty array. -/
noncomputable def npMin : List ℝ → ℝ
  | [] => 0
  | x :: xs => xs.foldl min x

/-- `np.mean` of a non-empty array. -/
noncomputable def npMean (l : List ℝ) : ℝ := l.sum / l.length

/-- `interp_membership`, `fuzzy.py:84-106`: `np.interp(xx, x, xmf, left, right)` with `left` and
`right` both 0 or both the end values. `x` is non-empty and increasing (NumPy raises on an empty
table; that case is left out). -/
noncomputable def interpMembership (x xmf : List ℝ) (xx : ℝ) (zeroOutside : Bool := true) : ℝ :=
  if xx < x.headD 0 then (if zeroOutside then 0 else xmf.headD 0)
  else if x.getLastD 0 < xx then (if zeroOutside then 0 else xmf.getLastD 0)
  else interpR xx x xmf

/-- `needle in hay` on strings. -/
def contains (needle hay : List Char) : Bool := hay.tails.any (needle.isPrefixOf ·)

open Classical in
/-- `x[mfx == mfx.max()]`. -/
noncomputable def atMax (x mfx : List ℝ) : List ℝ :=
  ((x.zip mfx).filter fun p => p.2 = npMax mfx).map Prod.fst

/-- `defuzz`, `fuzzy.py:109-142`. Empty arrays (an error in NumPy) are left out. `mode` is
taken in lower case (ASCII letters). -/
noncomputable def defuzz (x mfx : List ℝ) (mode : List Char) : Except PyError ℝ :=
  let mode := mode.map Char.toLower
  if x.length ≠ mfx.length then .error .valueError
  else if contains "mom".toList mode then .ok (npMean (atMax x mfx))
  else if contains "som".toList mode then .ok (npMin (atMax x mfx))
  else if contains "lom".toList mode then .ok (npMax (atMax x mfx))
  else .error .valueError

end Verif.Fuzzy
