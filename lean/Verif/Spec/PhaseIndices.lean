import Mathlib.Data.Real.Basic

/-!
# Specification of take-off and landing detection (independent of the model)

A trajectory has `n` samples with times `ts` (s), altitudes `alt` (ft) and speeds `spd` (kt).
-/

namespace Verif.Spec.PhaseIndices

/-- Sample `j` belongs to a take-off roll: 5 kt or more and, below 30 kt, not faster than the next. -/
def Rolling (spd : ℕ → ℝ) (j : ℕ) : Prop := 5 ≤ spd j ∧ (30 ≤ spd j ∨ spd j ≤ spd (j + 1))

/-- `a` is where the roll up to sample `e` begins; the first sample if sample `e - 1` does not roll. -/
def RollStart (spd : ℕ → ℝ) (e a : ℕ) : Prop :=
  (a < e ∧ (∀ j, a ≤ j → j < e → Rolling spd j) ∧ (a = 0 ∨ ¬ Rolling spd (a - 1))) ∨
  (a = 0 ∧ ¬ Rolling spd (e - 1))

/-- A take-off from sample `a` with lift-off at `b` that leaves 1500 ft at `c`. -/
def TakeOff (n : ℕ) (ts alt spd : ℕ → ℝ) (a b c : ℕ) : Prop :=
  ∃ e, c = e + 1 ∧ c ≤ n ∧ (∀ j, j < c → alt j < 1500) ∧ (c = n ∨ 1500 ≤ alt c) ∧
    RollStart spd e a ∧ ts e - ts a ≤ 300 ∧ a + 10 ≤ e ∧ 200 ≤ alt e ∧
    a + 5 ≤ b ∧ b < e ∧ 10 < |alt b - alt (b - 1)| ∧ ∀ j, a < j → j < b → |alt j - alt (j - 1)| ≤ 10

/-- Sample `j` continues a deceleration: 30 kt or more and, up to 50 kt, slower than the one before. -/
def Slowing (spd : ℕ → ℝ) (j : ℕ) : Prop := 30 ≤ spd j ∧ (50 < spd j ∨ spd j < spd (j - 1))

/-- `a` is where the final run below 1500 ft begins; the first sample if the data end higher. -/
def FinalLow (n : ℕ) (alt : ℕ → ℝ) (a : ℕ) : Prop :=
  ((∀ j, a ≤ j → j < n → alt j < 1500) ∧ a < n ∧ (a = 0 ∨ 1500 ≤ alt (a - 1))) ∨
  (1500 ≤ alt (n - 1) ∧ a = 0)

/-- A landing with final approach from sample `a`, touch-down at `b`, slowed down before sample `c`. -/
def Landing (n : ℕ) (alt spd : ℕ → ℝ) (a b c : ℕ) : Prop :=
  ∃ e, c = e + 1 ∧ FinalLow n alt a ∧ 100 ≤ alt a ∧
    50 < spd a ∧ c ≤ n ∧ (∀ j, a < j → j < c → Slowing spd j) ∧ (c = n ∨ ¬ Slowing spd c) ∧
    a + 5 ≤ b ∧ b + 5 ≤ e ∧ 10 < |alt b - alt (b + 1)| ∧
    ∀ j, b < j → j + 1 < e → |alt j - alt (j + 1)| ≤ 10

end Verif.Spec.PhaseIndices
