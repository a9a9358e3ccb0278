import Verif.Model.Tables

/-!
# An installation directory on a disk

Vocabulary for what is found on a disk, in terms of absolute paths only.
-/

namespace Verif.Spec.Files
open Verif.Tables

/-- No wildcard character. -/
def Plain (c : Str) : Prop := ∀ x ∈ c, x ≠ 42 ∧ x ≠ 63 ∧ x ≠ 91

/-- A data directory as the package ships it: its path has no wildcards, there is something in it, and
entries with the ending `ext` are visible files. -/
structure Installed {β : Type} (fs : List (List Str × β)) (dir : List Str) (ext : Str) : Prop where
  plain : ∀ c ∈ dir, Plain c ∧ c ≠ [46] ∧ c ≠ [46, 46]
  full : ∃ f ∈ fs, dir <+: f.1 ∧ dir.length < f.1.length
  entries : ∀ f ∈ fs, ∀ n, dir ++ [n] <+: f.1 → ext <:+ n → f.1 = dir ++ [n] ∧ n.head? ≠ some 46

/-- A file directly in a directory that has a given ending: its name without it and its content. -/
def entry {β : Type} (dir : List Str) (ext : Str) (f : List Str × β) : Option (Str × β) :=
  match f.1.getLast? with
  | some n =>
    if f.1.dropLast = dir ∧ ext <:+ n then some (n.take (n.length - ext.length), f.2) else none
  | none => none

/-- All such files. -/
def table {β : Type} (dir : List Str) (ext : Str) (fs : List (List Str × β)) : List (Str × β) :=
  fs.filterMap (entry dir ext)

/-- `"../"` repeated, followed by a relative path: `/` between names. -/
def climb (k : ℕ) (rest : List Str) : Str := [47].intercalate (List.replicate k [46, 46] ++ rest)

end Verif.Spec.Files
