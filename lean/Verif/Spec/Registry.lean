import Mathlib.Data.Nat.Notation
import Mathlib.Data.List.Forall2

/-!
# Specification of string matching (independent of the model)

Strings are lists of ASCII character codes.
-/

namespace Verif.Spec

/-- The same character up to letter case. -/
def SameLetter (c d : ℕ) : Prop :=
  c = d ∨ (65 ≤ c ∧ c ≤ 90 ∧ d = c + 32) ∨ (65 ≤ d ∧ d ≤ 90 ∧ c = d + 32)

/-- The same string up to letter case. -/
def SameText (s t : List ℕ) : Prop := List.Forall₂ SameLetter s t

/-- `p` is a prefix of `s` up to letter case. -/
def PrefixCI (p s : List ℕ) : Prop := ∃ a b, s = a ++ b ∧ SameText p a

/-- `p` occurs in `s` up to letter case. -/
def OccursCI (p s : List ℕ) : Prop := ∃ a m b, s = a ++ m ++ b ∧ SameText p m

/-- White space: tab, line feed, vertical tab, form feed, carriage return, the four ASCII
separators, space. -/
def Blank (c : ℕ) : Prop := c ∈ [9, 10, 11, 12, 13, 28, 29, 30, 31, 32]

/-- `core` is `s` without surrounding white space. -/
def Stripped (s core : List ℕ) : Prop :=
  ∃ a b, s = a ++ core ++ b ∧ (∀ c ∈ a, Blank c) ∧ (∀ c ∈ b, Blank c) ∧
    (∀ c, core.head? = some c → ¬ Blank c) ∧ (∀ c, core.getLast? = some c → ¬ Blank c)

/-- `x` is the first member of `l` satisfying `p`. -/
def FirstWith {β : Type} (p : β → Prop) (l : List β) (x : β) : Prop :=
  ∃ a b, l = a ++ x :: b ∧ p x ∧ ∀ y ∈ a, ¬ p y

end Verif.Spec
