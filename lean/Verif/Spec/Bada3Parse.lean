import Verif.Spec.Registry
import Mathlib.Data.Nat.Digits.Defs

/-!
# Specification of BADA3 file layout (independent of the model)

No regular expressions: texts are cut into pieces, and "first" means that no shorter piece before it
does.
-/

namespace Verif.Spec.Opf
open Verif.Spec

/-- A decimal digit. -/
def IsDigit (c : ℕ) : Prop := 48 ≤ c ∧ c ≤ 57

/-- A character that may be part of a number: a digit, `.`, `E`, `+` or `-`. -/
def NumChar (c : ℕ) : Prop := IsDigit c ∨ c ∈ [46, 69, 43, 45]

/-- `w` is a non-empty run of characters satisfying `p` that `rest` does not continue. -/
def Run (p : ℕ → Prop) (w rest : List ℕ) : Prop :=
  w ≠ [] ∧ (∀ c ∈ w, p c) ∧ ∀ c, rest.head? = some c → ¬ p c

/-- `s` starts with the words `ws` made of number characters, each after white space. -/
def Numbers : List (List ℕ) → List ℕ → Prop
  | [], _ => True
  | w :: ws, s => ∃ b rest, s = b ++ (w ++ rest) ∧ Run Blank b (w ++ rest) ∧ Run NumChar w rest ∧
      Numbers ws rest

/-- `key` occurs in `s` for the first time after `a`, and `rest` follows. -/
def FirstAt (key s a rest : List ℕ) : Prop :=
  s = a ++ (key ++ rest) ∧ ∀ a' rest', s = a' ++ (key ++ rest') → a.length ≤ a'.length

/-- `key` does not occur in `s`. -/
def Absent (key s : List ℕ) : Prop := ∀ a rest, s ≠ a ++ (key ++ rest)

/-- In `s`, the first place where `key` is followed by a text satisfying `P` is followed by
`rest`. -/
def FirstPlace (key : List ℕ) (P : List ℕ → Prop) (s rest : List ℕ) : Prop :=
  ∃ a, s = a ++ (key ++ rest) ∧ P rest ∧
    ∀ a' rest', s = a' ++ (key ++ rest') → P rest' → a.length ≤ a'.length

/-- The words `ws` are the first ones after `header` that stand behind `CD`, as many as asked. -/
def Section (header content : List ℕ) (ws : List (List ℕ)) : Prop :=
  ∃ a body rest, FirstAt header content a body ∧
    FirstPlace [67, 68] (fun t => ∃ vs, vs.length = ws.length ∧ Numbers vs t) body rest ∧
    Numbers ws rest

/-- After the first `header` no `CD` is followed by `n` words, or there is no `header`. -/
def NoSection (header content : List ℕ) (n : ℕ) : Prop :=
  ∀ a body, FirstAt header content a body →
    ∀ m rest, body = m ++ ([67, 68] ++ rest) → ∀ vs, vs.length = n → ¬ Numbers vs rest

/-- `t` is white space, a row number, white space, the name of a phase or position, and `rest`. -/
def Row (label t rest : List ℕ) : Prop :=
  ∃ b d b', t = b ++ (d ++ (b' ++ (label ++ rest))) ∧ Run Blank b (d ++ (b' ++ (label ++ rest))) ∧
    Run IsDigit d (b' ++ (label ++ rest)) ∧ Run Blank b' (label ++ rest)

/-- `t` is white space, a word without white space, and `rest`. -/
def Name (t rest : List ℕ) : Prop :=
  ∃ b w, t = b ++ (w ++ rest) ∧ Run Blank b (w ++ rest) ∧ Run (fun c => ¬ Blank c) w rest

/-- The drag row of a phase: row number, phase, a name, and three numbers. -/
def DragRow (phase t : List ℕ) (stall cd0 cd2 : List ℕ) : Prop :=
  ∃ r r', Row phase t r ∧ Name r r' ∧ Numbers [stall, cd0, cd2] r'

/-- The character codes of a text. -/
def chars (s : String) : List ℕ := s.toList.map Char.toNat

/-- `xs` are the values of the words `skip`, ..., `skip + take - 1` of a section of `n` words, or
`take` copies of a default if there is no such section. -/
def Values {α : Type} (float : List ℕ → Option α) (header : String) (content : List ℕ)
    (n skip take : ℕ) (default : α) (xs : List α) : Prop :=
  (∃ ws, ws.length = n ∧ Section (chars header) content ws ∧
    ((ws.drop skip).take take).map float = xs.map some) ∨
  (NoSection (chars header) content n ∧ xs = List.replicate take default)

/-- A row number followed by one number. -/
def AreaRow (t w : List ℕ) : Prop := ∃ d rest, t = d ++ rest ∧ Run IsDigit d rest ∧ Numbers [w] rest

/-- A row number, the word `DOWN` and one number. -/
def GearRow (t w : List ℕ) : Prop :=
  ∃ d b rest, t = d ++ (b ++ ([68, 79, 87, 78] ++ rest)) ∧ Run IsDigit d (b ++ ([68, 79, 87, 78] ++ rest)) ∧
    Run Blank b ([68, 79, 87, 78] ++ rest) ∧ Numbers [w] rest

/-- The word `w` is the wing area: after the first `Wing Area`, the first `CD ` followed by a row
number and a number. -/
def Area (content w : List ℕ) : Prop :=
  ∃ a body rest, FirstAt [87, 105, 110, 103, 32, 65, 114, 101, 97] content a body ∧
    FirstPlace [67, 68, 32] (fun t => ∃ v, AreaRow t v) body rest ∧ AreaRow rest w

/-- The words `cd0`, `cd2` are the drag coefficients of a phase. -/
def Drag (phase content cd0 cd2 : List ℕ) : Prop :=
  ∃ rest stall, FirstPlace [67, 68] (fun t => ∃ a b c, DragRow phase t a b c) content rest ∧
    DragRow phase rest stall cd0 cd2

/-- `(x, y)` are the values of the drag coefficients of a phase, zero if it has no row. -/
def DragValues {α : Type} (float : List ℕ → Option α) (zero : α) (phase : String) (content : List ℕ)
    (x y : α) : Prop :=
  (∃ c0 c2, Drag (chars phase) content c0 c2 ∧ float c0 = some x ∧ float c2 = some y) ∨
  ((∀ m rest, content = m ++ ([67, 68] ++ rest) → ∀ a b c, ¬ DragRow (chars phase) rest a b c) ∧
    x = zero ∧ y = zero)

/-- No drag row for a phase. -/
def NoDrag (phase content : List ℕ) : Prop :=
  ∀ m rest, content = m ++ ([67, 68] ++ rest) → ∀ a b c, ¬ DragRow phase rest a b c

/-- The word `w` is the drag increment of the landing gear. -/
def Gear (content w : List ℕ) : Prop :=
  ∃ rest, FirstPlace [67, 68, 32] (fun t => ∃ v, GearRow t v) content rest ∧ GearRow rest w

/-- `block` runs from the first `Actype` to the end of the first line after it that starts with
`CD` and white space; white space after that `CD` may include line feeds. -/
def TypeBlock (content block : List ℕ) : Prop :=
  ∃ a body m b line rest, FirstAt [65, 99, 116, 121, 112, 101] content a body ∧
    body = m ++ ([10, 67, 68] ++ (b ++ (line ++ rest))) ∧
    Run Blank b (line ++ rest) ∧ (∀ c ∈ line, c ≠ 10) ∧ (∀ c, rest.head? = some c → c = 10) ∧
    (∀ m' c r, body = m' ++ ([10, 67, 68] ++ c :: r) → Blank c → m.length ≤ m'.length) ∧
    block = [65, 99, 116, 121, 112, 101] ++ (m ++ ([10, 67, 68] ++ (b ++ line)))

/-- After the first `Actype` no line starts with `CD` and white space. -/
def NoTypeBlock (content : List ℕ) : Prop :=
  ∀ a body, FirstAt [65, 99, 116, 121, 112, 101] content a body →
    ∀ m c r, body = m ++ ([10, 67, 68] ++ c :: r) → ¬ Blank c

/-- `t` is a number of engines: digits, white space and `engine` in any letter case. -/
def Engines (t d : List ℕ) : Prop :=
  ∃ b e rest, t = d ++ (b ++ (e ++ rest)) ∧ Run IsDigit d (b ++ (e ++ rest)) ∧
    Run Blank b (e ++ rest) ∧ SameText [101, 110, 103, 105, 110, 101] e

/-- The value of decimal digits. -/
def value (w : List ℕ) : ℕ := Nat.ofDigits 10 (w.reverse.map (· - 48))

/-- The third word of a synonym line: `CD`, one character, the code. -/
def Code (line code : List ℕ) : Prop :=
  ∃ b x b' rest, line = [67, 68] ++ (b ++ x :: (b' ++ (code ++ rest))) ∧
    Run Blank b (x :: (b' ++ (code ++ rest))) ∧ ¬ Blank x ∧ Run Blank b' (code ++ rest) ∧
    Run (fun c => ¬ Blank c) code rest

/-- A text without line feeds and without two adjacent white space characters, which starts and ends
with other characters. -/
def Phrase (s : List ℕ) : Prop :=
  s ≠ [] ∧ (∀ c ∈ s, c ≠ 10) ∧ (∀ c, s.head? = some c → ¬ Blank c) ∧
    (∀ c, s.getLast? = some c → ¬ Blank c) ∧
    ∀ u c d v, s = u ++ c :: d :: v → ¬ (Blank c ∧ Blank d)

/-- A synonym line: `CD`, a flag, code, manufacturer, two or more blanks, model, two or more blanks,
file name, further columns and a final slash. -/
def SynonymLine (line code manufacturer model file : List ℕ) : Prop :=
  ∃ b1 x b2 b3 b4 b5 b6 tail nl,
    line = [67, 68] ++ (b1 ++ x :: (b2 ++ (code ++ (b3 ++ (manufacturer ++ (b4 ++ (model ++
      (b5 ++ (file ++ (b6 ++ (tail ++ 47 :: nl))))))))))) ∧
    (∀ b ∈ [b1, b2, b3, b4, b5, b6], b ≠ [] ∧ ∀ c ∈ b, Blank c) ∧ ¬ Blank x ∧
    2 ≤ b4.length ∧ 2 ≤ b5.length ∧
    code ≠ [] ∧ (∀ c ∈ code, ¬ Blank c) ∧ file ≠ [] ∧ (∀ c ∈ file, ¬ Blank c) ∧
    Phrase manufacturer ∧ 2 ≤ manufacturer.length ∧ Phrase model ∧
    (∀ c ∈ tail, c ≠ 10) ∧ (∀ c, tail.head? = some c → ¬ Blank c) ∧ (nl = [] ∨ nl = [10])

end Verif.Spec.Opf
