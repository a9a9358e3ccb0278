import Verif.Prelude.Backend
import Verif.Prelude.Py

/-!
# NumPy arrays of at most two dimensions

Just enough of NumPy for `/repo/openap/addon/bada4.py`: shapes, broadcasting, `reshape(-1, 1)` and the
decorator's conversion to scalars (`/repo/openap/extra/__init__.py:43-89` with `column=True`). Entries
are real numbers or NaN. A one-dimensional array has one row, as NumPy's broadcasting treats it.
-/

namespace Verif.Arrays
open Verif

/-- An array: number of dimensions, rows, columns, entries (only those inside the shape matter). -/
structure Nd where
  ndim : ℕ
  rows : ℕ
  cols : ℕ
  get : ℕ → ℕ → NR

/-- A Python number. -/
def Nd.num (x : NR) : Nd := ⟨0, 1, 1, fun _ _ => x⟩

/-- A list or one-dimensional array of `n` numbers. -/
def Nd.vec (n : ℕ) (u : ℕ → NR) : Nd := ⟨1, 1, n, fun _ j => u j⟩

/-- `np.array([x]).reshape(-1, 1)` or `np.asarray(x).reshape(-1, 1)`, `extra/__init__.py:57-62`. -/
def Nd.col (a : Nd) : Nd := ⟨2, a.rows * a.cols, 1, fun i _ => a.get (i / a.cols) (i % a.cols)⟩

/-- `to_scalar` with `column=True`, `extra/__init__.py:78-85`. -/
def Nd.toScalar (a : Nd) : Nd := if a.rows * a.cols = 1 then .num (a.get 0 0) else a

/-- An elementwise function of one array. -/
def Nd.map (f : NR → NR) (a : Nd) : Nd := { a with get := fun i j => f (a.get i j) }

/-- Broadcasting of one dimension: sizes must agree unless one of them is 1. -/
def bdim (m n : ℕ) : Except PyError ℕ :=
  if m = 1 then .ok n else if n = 1 ∨ m = n then .ok m else .error .valueError

/-- Index into a dimension of size `n` that may have been broadcast. -/
def idx (n i : ℕ) : ℕ := if n = 1 then 0 else i

/-- The entry of `a` used at place `(i, j)` of a broadcast result. -/
def Nd.at (a : Nd) (i j : ℕ) : NR := a.get (idx a.rows i) (idx a.cols j)

/-- An elementwise function of two arrays. -/
def op2 (f : NR → NR → NR) (a b : Nd) : Except PyError Nd := do
  let r ← bdim a.rows b.rows
  let c ← bdim a.cols b.cols
  return ⟨max a.ndim b.ndim, r, c, fun i j => f (a.at i j) (b.at i j)⟩

/-- An elementwise function of three arrays (`np.where`). -/
def op3 (f : NR → NR → NR → NR) (a b c : Nd) : Except PyError Nd := do
  let r ← bdim a.rows b.rows
  let r ← bdim r c.rows
  let k ← bdim a.cols b.cols
  let k ← bdim k c.cols
  return ⟨max (max a.ndim b.ndim) c.ndim, r, k, fun i j => f (a.at i j) (b.at i j) (c.at i j)⟩

/-- A sum of `n` terms. -/
noncomputable def nsum : ℕ → (ℕ → NR) → NR
  | 0, _ => .val 0
  | n + 1, f => nsum n f + f n

/-- `einsum("ij,jk,ik->k", reshape(coef, (r, c)), p, q)` for arrays `p` of shape `(c, m)` and `q` of shape
`(r, n)`: reshaping fails unless there are `r * c` coefficients, and the sizes of `k` must broadcast. -/
noncomputable def einsum (r c : ℕ) (coef : List ℝ) (m : ℕ) (p : ℕ → ℕ → NR) (n : ℕ) (q : ℕ → ℕ → NR) :
    Except PyError Nd := do
  if coef.length ≠ r * c then throw .valueError
  let k ← bdim m n
  return ⟨1, 1, k, fun _ t => nsum r fun i => nsum c fun j =>
    .val (coef.getD (i * c + j) 0) * p j (idx m t) * q i (idx n t)⟩

end Verif.Arrays
