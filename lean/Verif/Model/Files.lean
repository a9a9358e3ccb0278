import Verif.Model.Registry

/-!
# Finding data files on disk

How `openap/prop.py`, `openap/drag.py` and `openap/kinematic.py` find their files: the path of the
package joined with a name is given to `glob.glob` or `open`. `Model/Registry.lean` and
`Model/Construct.lean` take the contents of the data directories as tables instead; here the
directories are part of the path, as they are for `glob`.

The disk is a list of files with absolute paths. Not modelled: symbolic links, empty directories,
permissions, limits on the length of names. A directory is listed once per file below it; this matters
for no claim.
-/

namespace Verif.Files
open Verif.Tables Verif.Registry

/-- Files by absolute path (names from the root down), in the order in which directories list them. -/
abbrev Disk (β : Type) := List (List Str × β)

section
variable {β : Type} (fs : Disk β)

/-- Is there a file at this path? -/
def isFile (p : List Str) : Bool := fs.any fun f => f.1 == p

/-- Is there a directory at this path? -/
def isDir (p : List Str) : Bool :=
  p.isEmpty || fs.any fun f => p.isPrefixOf f.1 && decide (p.length < f.1.length)

/-- How the operating system follows a path: `.` stays, `..` goes up. -/
def walk : List Str → List Str → Option (List Str)
  | cur, [] => some cur
  | cur, c :: cs =>
    if isDir fs cur then
      if c = [46] then walk cur cs
      else if c = [46, 46] then walk cur.dropLast cs
      else if isDir fs (cur ++ [c]) || isFile fs (cur ++ [c]) then walk (cur ++ [c]) cs
      else none
    else none

/-- `os.path.lexists`. -/
def lexists (p : List Str) : Bool := (walk fs [] p).isSome

/-- The names in a directory. -/
def listdir (d : List Str) : List Str :=
  fs.filterMap fun f => if d.isPrefixOf f.1 then f.1[d.length]? else none

/-- `glob._ishidden`: does the name begin with a dot? -/
def hidden (n : Str) : Bool := n.head? == some 46

/-- One step of `glob._iglob`: the paths that continue `d` by a name fitting `c`. Names with wildcard
characters are compared with the directory (only its directories, unless this is the last name of the
pattern; hidden ones only if the pattern is hidden), others are looked up. -/
def expand (last : Bool) (c : Str) (d : List Str) : List (List Str) :=
  if hasMagic c then
    match walk fs [] d with
    | none => []
    | some cur =>
      ((listdir fs cur).filter fun n => (hidden c || !hidden n) && fnmatch c n &&
        (last || isDir fs (cur ++ [n]))).map fun n => d ++ [n]
  else if lexists fs (d ++ [c]) then [d ++ [c]] else []

/-- `glob.glob` of an absolute path, given as a list of names. CPython works from the end of the path
and tests a beginning without wildcards only together with what follows; the result is the same. -/
def glob : List (List Str) → List Str → List (List Str)
  | ds, [] => ds
  | ds, [c] => ds.flatMap (expand fs true c)
  | ds, c :: cs => glob (ds.flatMap (expand fs false c)) cs

/-- `open(path).read()`. -/
def openFile (p : List Str) : Except PyError β :=
  match walk fs [] p with
  | none => .error .ioError
  | some cur => match fs.find? fun f => f.1 == cur with
    | some f => .ok f.2
    | none => .error .ioError

end

/-- The names in a relative path; empty ones, from a slash at the beginning or two in a row, play no
role. -/
def names (s : Str) : List Str := (s.splitOn 47).filter fun c => !c.isEmpty

/-- `".yml"`. -/
def yml : Str := [46, 121, 109, 108]
/-- `".txt"`. -/
def txt : Str := [46, 116, 120, 116]

section
variable {β : Type} (fs : Disk β)

/-- `available_aircraft(False)`, `prop.py:38-39`: the paths; `sorted` is omitted. -/
def availablePaths (dir : List Str) : List (List Str) := glob fs [[]] (dir ++ [[42] ++ yml])

/-- `aircraft`, `prop.py:48-96`; `dir` is `dir_aircraft`, `prop.py:19-20`, and the result the text of
the file. -/
def aircraft (dir : List Str) (syn : List (Str × Str)) (ac : Str) (useSynonym : Bool) :
    Except PyError β :=
  let ac := lower ac
  match glob fs [[]] (dir ++ names (ac ++ yml)) with
  | f :: _ => openFile fs f
  | [] =>
    match lookup ac syn with
    | none => .error .valueError
    | some new =>
      if useSynonym then
        match glob fs [[]] (dir ++ names (new ++ yml)) with
        | f :: _ => openFile fs f
        | [] => .error .indexError
      else .error .valueError

/-- `s[-8:-4].lower()` for the last name of a path; names of fewer than eight characters, for which
Python reaches into the directory, are cut at their beginning. -/
def code (p : List Str) : Str :=
  let n := p.getLastD []
  lower ((n.drop (n.length - 8)).take (n.length - 4 - (n.length - 8)))

/-- `Drag.load_drag_model`, `drag.py:58-90`, and `WRAP.__init__`, `kinematic.py:48-66`: the type codes
are read off the listed paths, the file is then opened by name. `ac` is already lower case. -/
def modelFile (dir : List Str) (ext : Str) (syn : List (Str × Str)) (ac : Str) (useSynonym : Bool) :
    Except PyError β :=
  if ac ∈ (glob fs [[]] (dir ++ [[42] ++ ext])).map code then openFile fs (dir ++ names (ac ++ ext))
  else
    match lookup ac syn with
    | some new => if useSynonym then openFile fs (dir ++ names (new ++ ext)) else .error .valueError
    | none => .error .valueError

/-- `Drag.load_drag_model`, `drag.py:62-90`. -/
def polarFile (dir : List Str) (syn : List (Str × Str)) (ac : Str) (useSynonym : Bool) :
    Except PyError β := modelFile fs dir yml syn ac useSynonym

/-- `WRAP.__init__`, `kinematic.py:46-66`. -/
def wrapFile (dir : List Str) (syn : List (Str × Str)) (ac : Str) (useSynonym : Bool) :
    Except PyError β := modelFile fs dir txt syn (lower ac) useSynonym

end

end Verif.Files
