import Verif.Model.Registry

/-!
# Backtracking regular expressions

The part of Python's `re` used by `/repo/openap/addon/bada3.py`: character classes, greedy `+` and
`*` and lazy `*?` over a class, optional groups, capturing groups and the anchors `^` and `$`.
Strings are lists of ASCII codes. A pattern maps a position in the text to the list of positions
where a match may end, in the order in which the backtracking matcher tries them.
-/

namespace Verif.Regex
open Verif.Tables Verif.Registry

/-- Patterns. -/
inductive Re where
  /-- One character of a class. -/
  | cls (p : ℕ → Bool)
  /-- Greedy `p+`. -/
  | plus (p : ℕ → Bool)
  /-- Greedy `p*`. -/
  | star (p : ℕ → Bool)
  /-- Lazy `p*?`. -/
  | lazy (p : ℕ → Bool)
  /-- Concatenation. -/
  | seq (a b : Re)
  /-- `(?:a)?`. -/
  | opt (a : Re)
  /-- `(a)`. -/
  | cap (a : Re)
  /-- `^` with `re.MULTILINE`. -/
  | bol
  /-- `$` with `re.MULTILINE`. -/
  | eolM
  /-- `$` without flags: at the end or before a final line feed. -/
  | eol
  /-- The empty pattern. -/
  | eps

/-- A position: the character before it, the rest of the text, the groups captured so far. -/
structure Pos where
  prev : Option ℕ
  rest : Str
  caps : List Str

/-- Ends of greedy `p*`, longest first. -/
def starEnds (p : ℕ → Bool) (prev : Option ℕ) (caps : List Str) : Str → List Pos
  | [] => [⟨prev, [], caps⟩]
  | c :: r => if p c then starEnds p (some c) caps r ++ [⟨prev, c :: r, caps⟩] else [⟨prev, c :: r, caps⟩]

/-- Ends of lazy `p*?`, shortest first. -/
def lazyEnds (p : ℕ → Bool) (prev : Option ℕ) (caps : List Str) : Str → List Pos
  | [] => [⟨prev, [], caps⟩]
  | c :: r => ⟨prev, c :: r, caps⟩ :: if p c then lazyEnds p (some c) caps r else []

/-- Ends of a match from a position, in the order tried. -/
def run : Re → Pos → List Pos
  | .cls p, x => match x.rest with
    | [] => []
    | c :: r => if p c then [⟨some c, r, x.caps⟩] else []
  | .plus p, x => match x.rest with
    | [] => []
    | c :: r => if p c then starEnds p (some c) x.caps r else []
  | .star p, x => starEnds p x.prev x.caps x.rest
  | .lazy p, x => lazyEnds p x.prev x.caps x.rest
  | .seq a b, x => (run a x).flatMap (run b)
  | .opt a, x => run a x ++ [x]
  | .cap a, x => (run a x).map fun y =>
      { y with caps := y.caps ++ [x.rest.take (x.rest.length - y.rest.length)] }
  | .bol, x => if x.prev = none ∨ x.prev = some 10 then [x] else []
  | .eolM, x => if x.rest = [] ∨ x.rest.head? = some 10 then [x] else []
  | .eol, x => if x.rest = [] ∨ x.rest = [10] then [x] else []
  | .eps, x => [x]

/-- A match: the whole text matched and the groups. -/
structure Match where
  whole : Str
  groups : List Str

/-- `pattern.match` from a position: the first alternative. -/
def matchAt (r : Re) (prev : Option ℕ) (s : Str) : Option Match :=
  (run r ⟨prev, s, []⟩).head?.map fun y => ⟨s.take (s.length - y.rest.length), y.caps⟩

/-- `re.search` from a position on: the leftmost start that matches. -/
def searchFrom (r : Re) (prev : Option ℕ) : Str → Option Match
  | [] => matchAt r prev []
  | c :: s => match matchAt r prev (c :: s) with
    | some m => some m
    | none => searchFrom r (some c) s

/-- `re.search(pattern, text)`. -/
def search (r : Re) (s : Str) : Option Match := searchFrom r none s

/-- A literal text. -/
def lit : Str → Re
  | [] => .eps
  | c :: s => .seq (.cls (· == c)) (lit s)

/-- A literal text with `re.IGNORECASE`. -/
def litCI : Str → Re
  | [] => .eps
  | c :: s => .seq (.cls fun d => loC d == loC c) (litCI s)

/-- `\d`. -/
def digit (c : ℕ) : Bool := 48 ≤ c && c ≤ 57
/-- `\s`. -/
def space : ℕ → Bool := isSpace
/-- `\S`. -/
def nonSpace (c : ℕ) : Bool := !isSpace c
/-- `[\d.E+-]`. -/
def numeric (c : ℕ) : Bool := digit c || c == 46 || c == 69 || c == 43 || c == 45
/-- `.` without `re.DOTALL`. -/
def dot (c : ℕ) : Bool := c != 10
/-- `.` with `re.DOTALL`, and `[\s\S]`. -/
def any (_ : ℕ) : Bool := true

end Verif.Regex
