import Verif.Model.Bada4

/-!
# Specification of reading a BADA4 model file

Refers to the model's type of XML elements only.
-/

namespace Verif.Spec.Bada4File
open Verif.Bada4 Verif.Tables

mutual
/-- All elements below an element in document order, each with the tags on the way to it. -/
def walk : Elem → List (List Str × Elem)
  | .mk _ _ cs => walks cs
/-- The same for a list of children. -/
def walks : List Elem → List (List Str × Elem)
  | [] => []
  | c :: cs => ([c.tag], c) :: ((walk c).map fun w => (c.tag :: w.1, w.2)) ++ walks cs
end

/-- Character codes of tags. -/
def codes (p : List String) : List Str := p.map fun s => s.toList.map Char.toNat

/-- The elements with exactly these tags on the way to them, in document order. -/
def at_ (x : Elem) (p : List String) : List Elem :=
  ((walk x).filter fun w => w.1 = codes p).map Prod.snd

/-- The elements with these tags on the way to them from some element below the root, by document order
of that element. -/
def anywhere (x : Elem) (p : List String) : List Elem := (walk x).flatMap fun w => at_ w.2 p

/-- The texts of the elements read as numbers are `v`. -/
def Numbers (num : Str → Option ℝ) (l : List Elem) (v : List ℝ) : Prop :=
  List.Forall₂ (fun e r => ∃ s, e.text = some s ∧ num s = some r) l v

/-- The text of the first element, empty if it has none, read as a number is `r`. -/
def First (num : Str → Option ℝ) (l : List Elem) (r : ℝ) : Prop :=
  ∃ e rest, l = e :: rest ∧ num (e.text.getD []) = some r

end Verif.Spec.Bada4File
