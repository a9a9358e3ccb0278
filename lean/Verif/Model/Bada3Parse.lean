import Verif.Model.Regex
import Verif.Prelude.Py

/-!
# `openap/addon/bada3.py`: reading BADA3 files

`load_bada3`, `read_synonym` and `parse_opf_content` (`/repo/openap/addon/bada3.py:42-268`). A text
is a list of ASCII codes. `float` on the matched words is an arbitrary function that may raise
`ValueError`; `int` on a word of digits is its decimal value. The file system is a function from
names to contents (after Python's newline translation); reading with `for line in f` splits after
line feeds. `\d`, `\s` and letter case are those of ASCII.
-/

namespace Verif.Bada3Parse
open Verif.Tables Verif.Registry Verif.Regex

/-- `\s+([\d.E+-]+)`, or without the group when the flag is false. -/
def field (captured : Bool) : Re :=
  .seq (.plus space) (if captured then .cap (.plus numeric) else .plus numeric)

/-- Several such words. -/
def fields : List Bool → Re
  | [] => .eps
  | [b] => field b
  | b :: bs => .seq (field b) (fields bs)

/-- `"CD"`. -/
def cd : Str := [67, 68]

/-- `header.*?CD\s+(..)\s+(..)...` with `re.DOTALL`. -/
def section_ (header : Str) (flags : List Bool) : Re :=
  .seq (lit header) (.seq (.lazy any) (.seq (lit cd) (fields flags)))

section
variable {α : Type} (float : Str → Option α)

/-- `[float(m.group(i)) for i in range(1, count + 1)]`. -/
def floats : List Str → Except PyError (List α)
  | [] => .ok []
  | w :: ws => match float w with
    | none => .error .valueError
    | some x => match floats ws with
      | .error e => .error e
      | .ok xs => .ok (x :: xs)

/-- `get_floats`, `bada3.py:156-161`; `count` is always the number of groups. -/
def getFloats (content : Str) (pattern : Re) (count : ℕ) (default : α) : Except PyError (List α) :=
  match search pattern content with
  | some m => floats float m.groups
  | none => .ok (List.replicate count default)

/-- The pattern of `get_drag_coeff`, `bada3.py:149-151`. -/
def dragPattern (phase : Str) : Re :=
  .seq (lit cd) (.seq (.plus space) (.seq (.plus digit) (.seq (.plus space) (.seq (lit phase)
    (.seq (.plus space) (.seq (.plus nonSpace) (fields [false, true, true])))))))

/-- `get_drag_coeff`, `bada3.py:147-153`. -/
def getDrag (zero : α) (content phase : Str) : Except PyError (List α) :=
  getFloats float content (dragPattern phase) 2 zero
end

/-- `"Actype"`. -/
def actype : Str := [65, 99, 116, 121, 112, 101]

/-- `Actype[\s\S]*?^CD\s+.*$` with `re.MULTILINE`, `bada3.py:166`. -/
def actypePattern : Re :=
  .seq (lit actype) (.seq (.lazy any) (.seq .bol (.seq (lit cd) (.seq (.plus space)
    (.seq (.star dot) .eolM)))))

/-- Engine types. -/
inductive EngineType where
  | turbofan | turboprop | piston | electric
deriving DecidableEq

/-- Does `re.search(word, text, re.IGNORECASE)` succeed? -/
def hasWord (word text : Str) : Bool := (search (litCI word) text).isSome

/-- `bada3.py:169-177`. -/
def engineType (t : Str) : EngineType :=
  if hasWord [84, 117, 114, 98, 111, 112, 114, 111, 112] t then .turboprop
  else if hasWord [74, 101, 116] t then .turbofan
  else if hasWord [80, 105, 115, 116, 111, 110] t then .piston
  else if hasWord [69, 108, 101, 99, 116, 114, 105, 99] t then .electric
  else .turbofan

/-- `int` of a word of digits. -/
def decimal (w : Str) : ℕ := w.foldl (fun n c => 10 * n + (c - 48)) 0

/-- `(\d+)\s+engines?` with `re.IGNORECASE`, `bada3.py:180`. -/
def enginesPattern : Re :=
  .seq (.cap (.plus digit)) (.seq (.plus space)
    (.seq (litCI [101, 110, 103, 105, 110, 101]) (.opt (litCI [115]))))

/-- `bada3.py:180-182`. -/
def engineNumber (t : Str) : Option ℕ :=
  (search enginesPattern t).map fun m => decimal (m.groups.headD [])

/-- `bada3.py:164-182`: default type turbofan and number `None`. -/
def engine (content : Str) : EngineType × Option ℕ :=
  match search actypePattern content with
  | none => (.turbofan, none)
  | some m => (engineType m.whole, engineNumber m.whole)

/-- The returned dictionary, `bada3.py:236-268`. -/
structure Opf (α : Type) where
  mtow : α
  mref : α
  oew : α
  mpl : α
  vmo : α
  mmo : α
  ceiling : α
  length : α
  area : α
  span : α
  engine : EngineType × Option ℕ
  cd0 : List α
  cd2 : List α
  cd0Lgear : α
  ct : List α
  ctDesHigh : α
  ctDesLow : α
  ctDesApp : α
  ctDesLd : α
  hpDes : α
  cf : List α
  cfDes : List α
  cfCrz : α

/-- `"Mass (t)"`. -/
def hMass : Str := [77, 97, 115, 115, 32, 40, 116, 41]
/-- `"Flight envelope"`. -/
def hEnvelope : Str := [70, 108, 105, 103, 104, 116, 32, 101, 110, 118, 101, 108, 111, 112, 101]
/-- `"Wing Area"`. -/
def hWing : Str := [87, 105, 110, 103, 32, 65, 114, 101, 97]
/-- `"Max climb thrust coefficients"`. -/
def hClimb : Str := [77, 97, 120, 32, 99, 108, 105, 109, 98, 32, 116, 104, 114, 117, 115, 116, 32,
  99, 111, 101, 102, 102, 105, 99, 105, 101, 110, 116, 115]
/-- `"Desc(low)"`. -/
def hDescLow : Str := [68, 101, 115, 99, 40, 108, 111, 119, 41]
/-- `"Thrust Specific Fuel Consumption Coefficients"`. -/
def hTsfc : Str := [84, 104, 114, 117, 115, 116, 32, 83, 112, 101, 99, 105, 102, 105, 99, 32, 70,
  117, 101, 108, 32, 67, 111, 110, 115, 117, 109, 112, 116, 105, 111, 110, 32, 67, 111, 101, 102,
  102, 105, 99, 105, 101, 110, 116, 115]
/-- `"Descent Fuel Flow Coefficients"`. -/
def hDescFuel : Str := [68, 101, 115, 99, 101, 110, 116, 32, 70, 117, 101, 108, 32, 70, 108, 111,
  119, 32, 67, 111, 101, 102, 102, 105, 99, 105, 101, 110, 116, 115]
/-- `"Cruise Corr"`. -/
def hCruise : Str := [67, 114, 117, 105, 115, 101, 32, 67, 111, 114, 114]
/-- `"Desc level"`. -/
def hDescLevel : Str := [68, 101, 115, 99, 32, 108, 101, 118, 101, 108]
/-- `"Ground"`. -/
def hGround : Str := [71, 114, 111, 117, 110, 100]
/-- `"CR"`. -/
def pCR : Str := [67, 82]
/-- `"IC"`. -/
def pIC : Str := [73, 67]
/-- `"TO"`. -/
def pTO : Str := [84, 79]
/-- `"AP"`. -/
def pAP : Str := [65, 80]
/-- `"LD"`. -/
def pLD : Str := [76, 68]

/-- `Wing Area.*?CD \d+\s+([\d.E+-]+)` with `re.DOTALL`, `bada3.py:200`. -/
def wingPattern : Re :=
  .seq (lit hWing) (.seq (.lazy any) (.seq (lit [67, 68, 32]) (.seq (.plus digit) (field true))))

/-- `CD \d+\s+DOWN\s+([\d.E+-]+)`, `bada3.py:210`. -/
def gearPattern : Re :=
  .seq (lit [67, 68, 32]) (.seq (.plus digit) (.seq (.plus space)
    (.seq (lit [68, 79, 87, 78]) (field true))))

/-- `parse_opf_content`, `bada3.py:134-268`. `xs[i]` on the lists returned by `get_floats` never
fails and is `getD`. -/
noncomputable def parseOpf (float : Str → Option ℝ) (content : Str) : Except PyError (Opf ℝ) := do
  let eng := engine content
  let mass ← getFloats float content (section_ hMass [true, true, true, true, false]) 4 0
  let env ← getFloats float content (section_ hEnvelope [true, true, true, false, false]) 3 0
  let wing ← getFloats float content wingPattern 1 0
  let cr ← getDrag float 0 content pCR
  let ic ← getDrag float 0 content pIC
  let tko ← getDrag float 0 content pTO
  let ap ← getDrag float 0 content pAP
  let ld ← getDrag float 0 content pLD
  let gear ← getFloats float content gearPattern 1 0
  let ct ← getFloats float content (section_ hClimb [true, true, true, true, true]) 5 0
  let des ← getFloats float content (section_ hDescLow [true, true, true, true, true]) 5 0
  let cf ← getFloats float content (section_ hTsfc [true, true]) 2 0
  let cfdes ← getFloats float content (section_ hDescFuel [true, true]) 2 0
  let cfcr ← getFloats float content (section_ hCruise [true]) 1 1
  let hp ← getFloats float content (section_ hDescLevel [false, false, true]) 1 8000
  let ground ← getFloats float content (section_ hGround [true, true, true, true, false]) 4 0
  return {
    mtow := mass.getD 2 0 * 1e3
    mref := mass.getD 0 0 * 1e3
    oew := mass.getD 1 0 * 1e3
    mpl := mass.getD 3 0 * 1e3
    vmo := env.getD 0 0
    mmo := env.getD 1 0
    ceiling := env.getD 2 0 * 0.3048
    length := ground.getD 3 0
    area := wing.getD 0 0
    span := ground.getD 2 0
    engine := eng
    cd0 := [cr.getD 0 0, ic.getD 0 0, tko.getD 0 0, ap.getD 0 0, ld.getD 0 0]
    cd2 := [cr.getD 1 0, ic.getD 1 0, tko.getD 1 0, ap.getD 1 0, ld.getD 1 0]
    cd0Lgear := gear.getD 0 0
    ct := ct
    ctDesHigh := des.getD 1 0
    ctDesLow := des.getD 0 0
    ctDesApp := des.getD 3 0
    ctDesLd := des.getD 4 0
    hpDes := hp.getD 0 0
    cf := cf
    cfDes := cfdes
    cfCrz := cfcr.getD 0 0 }

/-- `\s{2,}`. -/
def spaces2 : Re := .seq (.cls space) (.plus space)

/-- The pattern of `read_synonym`, `bada3.py:105-110`. -/
def synonymPattern : Re :=
  .seq .bol (.seq (lit cd) (.seq (.plus space) (.seq (.cls nonSpace) (.seq (.plus space)
    (.seq (.cap (.plus nonSpace)) (.seq (.plus space)
    (.seq (.cap (.seq (.cls nonSpace) (.opt (.seq (.lazy dot) (.cls nonSpace))))) (.seq spaces2
    (.seq (.cap (.seq (.cls dot) (.lazy dot))) (.seq spaces2
    (.seq (.cap (.plus nonSpace)) (.seq (.plus space)
    (.seq (.lazy dot) (.seq (lit [47]) .eol))))))))))))))

/-- The dictionary of `read_synonym`. -/
structure Synonym where
  aircraft : Str
  manufacturer : Str
  model : Str
  synonym : Str
deriving DecidableEq

/-- The loop of `read_synonym`, `bada3.py:112-124`. -/
def readSynonym (ac : Str) : List Str → Except PyError Synonym
  | [] => .error .valueError
  | line :: lines =>
    match matchAt synonymPattern none line with
    | some ⟨_, [code, manufacturer, model, synonym]⟩ =>
      if upper code = upper ac then
        .ok { aircraft := strip manufacturer ++ [32] ++ strip model
              manufacturer := strip manufacturer
              model := strip model
              synonym := (strip synonym).take 4 }
      else readSynonym ac lines
    | _ => readSynonym ac lines

/-- `for line in f`: pieces ending with a line feed; `acc` is the current line reversed. -/
def splitLines (acc : Str) : Str → List Str
  | [] => if acc = [] then [] else [acc.reverse]
  | c :: s => if c = 10 then (c :: acc).reverse :: splitLines [] s else splitLines (c :: acc) s

/-- `load_bada3`, `bada3.py:42-75`; a missing file is an `ioError`. -/
noncomputable def loadBada3 (float : Str → Option ℝ) (file : Str → Option Str) (ac : Str) :
    Except PyError (Synonym × Opf ℝ) := do
  let lines ← match file [83, 89, 78, 79, 78, 89, 77, 46, 78, 69, 87] with
    | some s => pure (splitLines [] s)
    | none => throw .ioError
  let syn ← readSynonym ac lines
  match file (syn.synonym ++ [95, 95, 46, 79, 80, 70]) with
  | none => throw .ioError
  | some content => do
    let opf ← parseOpf float content
    return (syn, opf)

end Verif.Bada3Parse
