import Mathlib.Analysis.Real.Sqrt

/-! # The speed of least drag -/

namespace Verif.Spec

/-- Textbook speed of least drag [m/s] in air of density `ρ`: wing area `S`, drag polar
`cd0 + k cl²`, weight `W` [N]. -/
noncomputable def minDragSpeed (ρ S cd0 k W : ℝ) : ℝ :=
  Real.sqrt (2 * W / (ρ * S) * Real.sqrt (k / cd0))

end Verif.Spec
