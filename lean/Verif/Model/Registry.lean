import Verif.Model.Tables
import Verif.Prelude.Py

/-!
# `openap/prop.py`

Lookup of aircraft and engine records (`/repo/openap/prop.py:20-183`). Strings are lists of
character codes and only ASCII is modelled: `str.lower`, `str.upper` and `str.strip` act on
the 26 letters and the ASCII white space.
-/

namespace Verif.Registry
open Verif.Tables

/-- `str.upper` on one ASCII character. -/
def upC (c : ℕ) : ℕ := if 97 ≤ c ∧ c ≤ 122 then c - 32 else c
/-- `str.lower` on one ASCII character. -/
def loC (c : ℕ) : ℕ := if 65 ≤ c ∧ c ≤ 90 then c + 32 else c
/-- `str.upper`. -/
def upper (s : Str) : Str := s.map upC
/-- `str.lower`. -/
def lower (s : Str) : Str := s.map loC
/-- ASCII characters removed by `str.strip`. -/
def isSpace (c : ℕ) : Bool := c == 32 || (9 ≤ c && c ≤ 13) || (28 ≤ c && c ≤ 31)
/-- `str.strip`. -/
def strip (s : Str) : Str := ((s.dropWhile isSpace).reverse.dropWhile isSpace).reverse
/-- `sub in s` for strings. -/
def isIn (sub s : Str) : Bool := s.tails.any (sub.isPrefixOf ·)

/-- First value stored under a key: `df.query("orig==@k").new.iloc[0]`, or a file by name. -/
def lookup {β : Type} (k : Str) : List (Str × β) → Option β
  | [] => none
  | (k', v) :: l => if k' = k then some v else lookup k l

/-- Does a glob pattern contain `*`, `?` or `[`? -/
def hasMagic (p : Str) : Bool := p.any fun c => c == 42 || c == 63 || c == 91

/-- A piece of a glob pattern. -/
inductive Piece where
  | star
  | any
  | lit (c : ℕ)
  | set (neg : Bool) (ranges : List (ℕ × ℕ))
deriving DecidableEq

/-- The text after `[`: whether it starts with `!`, the text up to the closing `]`, which may begin
with a `]`, and what follows (CPython, `fnmatch.translate`). -/
def splitSet (p : Str) : Option (Bool × Str × Str) :=
  let q := if p.head? = some 33 then p.tail else p
  let first := if q.head? = some 93 then [93] else []
  let q' := q.drop first.length
  match q'.dropWhile (· ≠ 93) with
  | [] => none
  | _ :: rest => some (p.head? = some 33, first ++ q'.takeWhile (· ≠ 93), rest)

/-- Characters and ranges of a set; a hyphen at the beginning or the end stands for itself. -/
def ranges : Str → List (ℕ × ℕ)
  | c :: 45 :: d :: s => (c, d) :: ranges s
  | c :: s => (c, c) :: ranges s
  | [] => []

/-- The pieces of a pattern; `[` without a closing `]` stands for itself. -/
def pieces : ℕ → Str → List Piece
  | 0, _ => []
  | _, [] => []
  | n + 1, c :: p =>
    if c = 42 then .star :: pieces n p
    else if c = 63 then .any :: pieces n p
    else if c = 91 then
      match splitSet p with
      | some (neg, body, rest) => .set neg (ranges body) :: pieces n rest
      | none => .lit c :: pieces n p
    else .lit c :: pieces n p

/-- Does a character fit a piece? -/
def fits : Piece → ℕ → Bool
  | .star, _ => true
  | .any, _ => true
  | .lit c, d => c == d
  | .set neg rs, d => rs.any (fun r => r.1 ≤ d && d ≤ r.2) != neg

/-- Does a name match a sequence of pieces? -/
def matchPieces : List Piece → Str → Bool
  | [], s => s.isEmpty
  | .star :: p, s => s.tails.any (matchPieces p)
  | c :: p, s =>
    match s with
    | [] => false
    | d :: s' => fits c d && matchPieces p s'

/-- `fnmatch.fnmatchcase`, used by `glob` on a directory listing: `*`, `?`, `[seq]` and `[!seq]`. -/
def fnmatch (p s : Str) : Bool := matchPieces (pieces p.length p) s

/-- `glob.glob(dir + pat + ".yml")` over a directory given as a listing; without wildcard
characters `glob` tests for the file itself. Patterns containing `/` leave the directory and
are not modelled. -/
def glob {β : Type} (files : List (Str × β)) (pat : Str) : List (Str × β) :=
  files.filter fun f => if hasMagic pat then fnmatch pat f.1 else f.1 == pat

/-- The shipped data. The file lists are in the order in which the directory is listed. -/
structure DB where
  aircraft : List (Str × AircraftRow)
  aircraftSyn : List (Str × Str)
  engines : List EngineRow
  polars : List (Str × PolarRow)
  polarSyn : List (Str × Str)
  fuel : List FuelRow
  wrap : List (Str × List WrapRow)
  wrapSyn : List (Str × Str)

/-- `available_aircraft`, `prop.py:27-45`. `sorted` is omitted: the order plays no role
below. Every file name has four letters. -/
def availableAircraft (db : DB) (useSynonym : Bool) : List Str :=
  db.aircraft.map (·.1) ++ if useSynonym then db.aircraftSyn.map (·.1) else []

/-- `aircraft`, `prop.py:48-96`. The `"limits"` entry, a copy of other entries, is omitted. -/
def aircraft (db : DB) (ac : Str) (useSynonym : Bool) : Except PyError AircraftRow :=
  let ac := lower ac
  match glob db.aircraft ac with
  | f :: _ => .ok f.2
  | [] =>
    match lookup ac db.aircraftSyn with
    | none => .error .valueError
    | some new =>
      if useSynonym then
        match glob db.aircraft new with
        | f :: _ => .ok f.2
        | [] => .error .indexError
      else .error .valueError

/-- `aircraft_engine_options`, `prop.py:99-117`. -/
def engineOptions (db : DB) (ac : Str) : Except PyError (List Str) :=
  (aircraft db ac false).map (·.options)

/-- `search_engine`, `prop.py:120-143`. -/
def searchEngine (db : DB) (eng : Str) : Option (List Str) :=
  let q := upper (strip eng)
  match db.engines.filter fun r => q.isPrefixOf r.name with
  | [] => none
  | l => some (l.map (·.name))

/-- `engine`, `prop.py:146-183`: the record found and its `"name"`, which is the request. The
derived entry `"fuel_ch"` is in `Model/EngineRecord.lean`; no other modelled function reads it. -/
def engine (db : DB) (eng : Str) : Except PyError (EngineRow × Str) :=
  let q := upper (strip eng)
  match db.engines.filter fun r => q.isPrefixOf (upper r.name) with
  | [] => .error .valueError
  | r :: _ => .ok (r, eng)

end Verif.Registry
