import Mathlib.Data.Real.Basic

/-!
# Interpolation on a grid, for C117
-/

namespace Verif.Spec.Olr

/-- The character codes of a name. -/
def name (s : String) : List ℕ := s.toList.map Char.toNat

/-- `y` is the entry of rank `i` of the coordinate. -/
def Node (nodes : List ℝ) (i : ℕ) (y : ℝ) : Prop := nodes[i]? = some y

/-- The request `x` lies in the cell between the neighbouring nodes of rank `i` and `j`, at the
fraction `w` of the way. -/
def Cell (nodes : List ℝ) (x : ℝ) (i j : ℕ) (w : ℝ) : Prop :=
  ∃ a c, Node nodes i a ∧ Node nodes j c ∧ a < c ∧ (∀ y ∈ nodes, ¬ (a < y ∧ y < c)) ∧
    0 ≤ w ∧ w ≤ 1 ∧ x = a + w * (c - a)

/-- Within the extent of the coordinate. -/
def Inside (nodes : List ℝ) (x : ℝ) : Prop := (∃ y ∈ nodes, y ≤ x) ∧ ∃ y ∈ nodes, x ≤ y

/-- Beyond one end of the coordinate. -/
def Beyond (nodes : List ℝ) (x : ℝ) : Prop := (∀ y ∈ nodes, x < y) ∨ ∀ y ∈ nodes, y < x

/-- Weighted mean over the corners of a box; one `(lower, upper, fraction)` per dimension. -/
def corners : List (ℕ × ℕ × ℝ) → (List ℕ → ℝ) → ℝ
  | [], v => v []
  | (i, j, w) :: r, v =>
    (1 - w) * corners r (fun is => v (i :: is)) + w * corners r (fun is => v (j :: is))

end Verif.Spec.Olr
