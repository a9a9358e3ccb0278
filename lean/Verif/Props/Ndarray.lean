import Verif.Model.Ndarray
import Verif.Spec.Ndarray
import Mathlib.Data.List.Forall2
import Mathlib.Tactic.NormNum

/-!
# C23: scalar in, scalar out; vector in, vector out
-/

namespace Verif.Props
open Verif Verif.Ndarray Verif.Spec

/-- Shape of a length-`n` array inside a method. -/
def vecShape (column : Bool) (n : ℕ) : List ℕ := if column then [n, 1] else [n]

/-- The argument `v` of a call of vector length `n` supplies the cells `x`: strings and numbers
are the same for every element, a list or array of length `n` gives one number per element, a
list or array of length 1 is broadcast. A column array is accepted by the `column` variant
only. -/
inductive Supplies (column : Bool) (n : ℕ) : PyVal → (Fin n → Cell) → Prop
  | str (s) : Supplies column n (.str s) fun _ => .str s
  | num (x) : Supplies column n (.num x) fun _ => .num x
  | zeroDim (x) : Supplies column n (.arr [] [x]) fun _ => .num x
  | list (x : Fin n → ℝ) : Supplies column n (.lst [n] (List.ofFn x)) fun i => .num (x i)
  | list1 (x) : Supplies column n (.lst [1] [x]) fun _ => .num x
  | vec (x : Fin n → ℝ) : Supplies column n (.arr [n] (List.ofFn x)) fun i => .num (x i)
  | vec1 (x) : Supplies column n (.arr [1] [x]) fun _ => .num x
  | col (x : Fin n → ℝ) : column = true →
      Supplies column n (.arr [n, 1] (List.ofFn x)) fun i => .num (x i)
  | col1 (x) : column = true → Supplies column n (.arr [1, 1] [x]) fun _ => .num x

/-- The arguments an undecorated method is written for: strings and arrays of full or unit
length. -/
inductive ArraySupplies (column : Bool) (n : ℕ) : PyVal → (Fin n → Cell) → Prop
  | str (s) : ArraySupplies column n (.str s) fun _ => .str s
  | vec (x : Fin n → ℝ) :
      ArraySupplies column n (.arr (vecShape column n) (List.ofFn x)) fun i => .num (x i)
  | vec1 (x) : ArraySupplies column n (.arr (vecShape column 1) [x]) fun _ => .num x

/-- The value has vector length `n`. -/
def HasLength (n : ℕ) : PyVal → Prop
  | .lst (m :: _) _ => m = n
  | .arr (m :: _) _ => m = n
  | _ => False

/-- A call of vector length `n`: `n = 1`, or some argument has length `n`. -/
def CallLength (n : ℕ) (args : List PyVal) (kwargs : List (String × PyVal)) : Prop :=
  n = 1 ∨ (∃ v ∈ args, HasLength n v) ∨ ∃ p ∈ kwargs, HasLength n p.2

/-- `v` is an acceptable intermediate result holding `y`: an array of length `n`, or, when
`n = 1`, possibly the number itself (as an inner decorated call returns). -/
def Holds (column : Bool) (n : ℕ) (v : PyVal) (y : Fin n → ℝ) : Prop :=
  v = .arr (vecShape column n) (List.ofFn y) ∨ ∃ h : n = 1, v = .num (y ⟨0, by omega⟩)

/-- The part of an argument that decides which call it is: the text of a string, `none` for a
numeric argument. -/
def kind : PyVal → Option String
  | .str s => some s
  | _ => none

/-- Which calls a method accepts: number of arguments, keyword names, text arguments. -/
abbrev Signature := List (Option String) → List (String × Option String) → Prop

/-- A method written for arrays computes the scalar method `g` element by element, under NumPy
broadcasting of unit-length arguments, on every call with an accepted signature. -/
def Elementwise (column : Bool) (sig : Signature) (f : Method) (g : ScalarMethod) : Prop :=
  ∀ (n : ℕ) args kwargs (xs : List (Fin n → Cell)) (ks : List (String × (Fin n → Cell))),
    List.Forall₂ (ArraySupplies column n) args xs →
    List.Forall₂ (fun p k => p.1 = k.1 ∧ ArraySupplies column n p.2 k.2) kwargs ks →
    sig (args.map kind) (kwargs.map fun p => (p.1, kind p.2)) →
    CallLength n args kwargs →
    ∃ v, f args kwargs = .ok (.one v) ∧ Holds column n v (at' g xs ks)

/-- What the user sees: the number for `n = 1`, otherwise an array of length `n` holding the
scalar results (a column for `column=True`). -/
noncomputable def visible (column : Bool) (n : ℕ) (y : Fin n → ℝ) : PyVal :=
  if h : n = 1 then .num (y ⟨0, by omega⟩) else .arr (vecShape column n) (List.ofFn y)

theorem convert_supplies {column : Bool} {n : ℕ} {v : PyVal} {x : Fin n → Cell}
    (h : Supplies column n v x) : ArraySupplies column n (convertArg column v) x := by
  cases column <;> cases h <;>
    simp_all [convertArg, shapeArg] <;>
    first
      | exact .str _
      | exact .vec1 _
      | (exact .vec _)

theorem convert_kind (column : Bool) (v : PyVal) : kind (convertArg column v) = kind v := by
  rcases v with s | i | x | ⟨sh, d⟩ | ⟨sh, d⟩ <;> try rfl
  · cases column <;> rfl
  · cases column <;> rfl
  · cases column <;> cases sh <;> rfl

theorem not_symbolic {column : Bool} {n : ℕ} {v : PyVal} {x : Fin n → Cell}
    (h : Supplies column n v x) : isSymbolic v = false := by
  cases h <;> rfl

theorem convert_length {column : Bool} {n m : ℕ} {v : PyVal} {x : Fin n → Cell}
    (h : Supplies column n v x) (hl : HasLength m v) : HasLength m (convertArg column v) := by
  cases column <;> cases h <;> simp_all [convertArg, shapeArg, HasLength]

theorem toScalar_visible {column : Bool} {n : ℕ} {v : PyVal} {y : Fin n → ℝ}
    (h : Holds column n v y) : toScalar column v = visible column n y := by
  rcases h with rfl | ⟨rfl, rfl⟩
  · match n, y with
    | 0, y => cases column <;> simp [toScalar, visible, vecShape]
    | 1, y => cases column <;> simp [toScalar, visible, vecShape]
    | (n + 2), y => cases column <;> simp [toScalar, visible, vecShape]
  · cases column <;> simp [toScalar, visible]

/-- **C23.** A decorated element-wise method called with any mixture of scalars, lists, arrays and
strings of common vector length `n` returns the scalar result for `n = 1` (also when the one
element came in a list or an array) and otherwise an array of length `n` holding the scalar
results. With `column=True` that array is a column. -/
theorem C23_decorated (column : Bool) (sig : Signature) (f : Method) (g : ScalarMethod)
    (hf : Elementwise column sig f g) (n : ℕ) (args : List PyVal) (kwargs : List (String × PyVal))
    (xs : List (Fin n → Cell)) (ks : List (String × (Fin n → Cell)))
    (ha : List.Forall₂ (Supplies column n) args xs)
    (hk : List.Forall₂ (fun p k => p.1 = k.1 ∧ Supplies column n p.2 k.2) kwargs ks)
    (hs : sig (args.map kind) (kwargs.map fun p => (p.1, kind p.2)))
    (hn : CallLength n args kwargs) :
    wrapper column f args kwargs = .ok (.one (visible column n (at' g xs ks))) := by
  have s1 : args.any isSymbolic = false := by
    rw [List.any_eq_false]
    intro v hv
    obtain ⟨i, hi, rfl⟩ := List.getElem_of_mem hv
    have := (List.forall₂_iff_get.1 ha).2 i hi (by rw [← ha.length_eq]; exact hi)
    simpa using not_symbolic this
  have s2 : (kwargs.map Prod.snd).any isSymbolic = false := by
    rw [List.any_eq_false]
    intro v hv
    obtain ⟨p, hp, rfl⟩ := List.mem_map.1 hv
    obtain ⟨i, hi, rfl⟩ := List.getElem_of_mem hp
    have := (List.forall₂_iff_get.1 hk).2 i hi (by rw [← hk.length_eq]; exact hi)
    simpa using not_symbolic this.2
  obtain ⟨v, hv, hh⟩ := hf n (args.map (convertArg column))
    (kwargs.map fun p => (p.1, convertArg column p.2)) xs ks
    (List.forall₂_map_left_iff.2 (ha.imp fun _ _ h => convert_supplies h))
    (List.forall₂_map_left_iff.2 (hk.imp fun _ _ h => ⟨h.1, convert_supplies h.2⟩))
    (by
      simpa only [List.map_map, Function.comp_def, convert_kind] using hs)
    (by
      rcases hn with h | ⟨v, hv, hl⟩ | ⟨p, hp, hl⟩
      · exact .inl h
      · refine .inr (.inl ⟨_, List.mem_map_of_mem hv, ?_⟩)
        obtain ⟨i, hi, rfl⟩ := List.getElem_of_mem hv
        have := (List.forall₂_iff_get.1 ha).2 i hi (by rw [← ha.length_eq]; exact hi)
        exact convert_length this hl
      · refine .inr (.inr ⟨_, List.mem_map_of_mem hp, ?_⟩)
        obtain ⟨i, hi, rfl⟩ := List.getElem_of_mem hp
        have := (List.forall₂_iff_get.1 hk).2 i hi (by rw [← hk.length_eq]; exact hi)
        exact convert_length this.2 hl)
  unfold wrapper
  simp only [s1, s2, Bool.false_eq_true, if_false, hv]
  simp only [Except.map, toScalarRes, toScalar_visible hh]

/-- **C23 (nesting).** A decorated method is again element-wise, so decorated methods may call one
another; decorating twice changes nothing. -/
theorem C23_nests (column : Bool) (sig : Signature) (f : Method) (g : ScalarMethod)
    (hf : Elementwise column sig f g) : Elementwise column sig (wrapper column f) g := by
  intro n args kwargs xs ks ha hk hs hn
  have up : ∀ {v x}, ArraySupplies column n v x → Supplies column n v x := by
    intro v x h
    cases column <;> cases h
    · exact .str _
    · exact .vec _
    · exact .vec1 _
    · exact .str _
    · exact .col _ rfl
    · exact .col1 _ rfl
  refine ⟨_, C23_decorated column sig f g hf n args kwargs xs ks (ha.imp fun _ _ h => up h)
    (hk.imp fun _ _ h => ⟨h.1, up h.2⟩) hs hn, ?_⟩
  unfold Holds visible
  split_ifs with h
  · exact .inr ⟨h, rfl⟩
  · exact .inl rfl

/-- **C23 (pass through).** Strings reach the method unchanged, keyword names are kept, and one
symbolic argument, positional or keyword, switches conversion of all arguments and of the result
off. -/
theorem C23_pass_through (column : Bool) (f : Method) (args : List PyVal)
    (kwargs : List (String × PyVal)) :
    ((∃ i, PyVal.sym i ∈ args ∨ ∃ k, (k, PyVal.sym i) ∈ kwargs) →
      wrapper column f args kwargs = f args kwargs) ∧
    (∀ ss : List String, (∀ a k, f a k = .ok (.tup a)) →
      wrapper column f (ss.map .str) [] = .ok (.tup (ss.map .str))) ∧
    ((∀ i, PyVal.sym i ∉ args ∧ ∀ k, (k, PyVal.sym i) ∉ kwargs) →
      ∃ a k, k.map Prod.fst = kwargs.map Prod.fst ∧ a.length = args.length ∧
        wrapper column f args kwargs = (f a k).map (toScalarRes column)) := by
  have hs : ∀ v : PyVal, isSymbolic v = true ↔ ∃ i, v = .sym i := by
    intro v
    cases v <;> simp [isSymbolic]
  refine ⟨?_, ?_, ?_⟩
  · rintro ⟨i, h | ⟨k, h⟩⟩
    · unfold wrapper
      rw [if_pos (List.any_eq_true.2 ⟨_, h, rfl⟩)]
    · unfold wrapper
      split_ifs with h1 h2
      · rfl
      · rfl
      · exact absurd (List.any_eq_true.2 ⟨_, List.mem_map_of_mem h, rfl⟩) h2
  · intro ss hf
    have h1 : (ss.map PyVal.str).any isSymbolic = false := by
      simp [isSymbolic, List.any_eq_false]
    unfold wrapper
    rw [h1]
    simp only [Bool.false_eq_true, if_false, List.map_nil, List.any_nil, hf, List.map_map]
    simp only [Except.map, toScalarRes, List.map_map]
    congr 2
  · intro h
    refine ⟨args.map (convertArg column), kwargs.map fun p => (p.1, convertArg column p.2), ?_,
      by simp, ?_⟩
    · simp [List.map_map, Function.comp_def]
    · unfold wrapper
      rw [if_neg, if_neg]
      · rw [List.any_eq_true]
        rintro ⟨v, hv, hv'⟩
        obtain ⟨p, hp, rfl⟩ := List.mem_map.1 hv
        obtain ⟨i, hi⟩ := (hs _).1 hv'
        refine (h i).2 p.1 ?_
        rw [← hi]
        exact hp
      · rw [List.any_eq_true]
        rintro ⟨v, hv, hv'⟩
        obtain ⟨i, rfl⟩ := (hs _).1 hv'
        exact (h i).1 hv

/-- An element-wise method with broadcasting: the sum of two arrays. -/
noncomputable def addMethod : Method := fun args _ =>
  match args with
  | [.arr _ d, .arr _ e] =>
    if d.length = 1 then .ok (.one (.arr [e.length] (e.map fun y => d.headD 0 + y)))
    else if e.length = 1 then .ok (.one (.arr [d.length] (d.map fun x => x + e.headD 0)))
    else .ok (.one (.arr [d.length] (List.zipWith (· + ·) d e)))
  | _ => .error .typeError

/-- The scalar method it computes. -/
noncomputable def addScalar : ScalarMethod
  | [.num x, .num y], _ => x + y
  | _, _ => 0

/-- `addMethod` is element-wise on calls with two numeric arguments: the hypothesis of
`C23_decorated` is met. -/
theorem addMethod_elementwise :
    Elementwise false (fun a k => a = [none, none] ∧ k = []) addMethod addScalar := by
  intro n args kwargs xs ks ha hk hdom hn
  have len : ∀ z : Fin n → ℝ, (List.ofFn z).length = n := fun z => List.length_ofFn
  cases ha with
  | nil => simp at hdom
  | @cons a x as xs h1 ha =>
  cases ha with
  | nil => simp at hdom
  | @cons b y bs ys h2 ha =>
  cases ha with
  | cons => simp at hdom
  | nil =>
  cases kwargs with
  | cons => simp at hdom
  | nil =>
  cases hk
  cases h1 with
  | str s => simp [kind] at hdom
  | vec x =>
    cases h2 with
    | str s => simp [kind] at hdom
    | vec y =>
      have hat : at' addScalar [fun i => .num (x i), fun i => .num (y i)] [] =
        fun i => x i + y i := by funext i; rfl
      rw [hat]
      refine ⟨_, ?_, .inl rfl⟩
      by_cases h : n = 1
      · subst h
        simp [addMethod, vecShape]
      · simp only [addMethod, len, h, if_false, List.length_singleton, if_true, vecShape,
          Bool.false_eq_true]
        congr 3
        apply List.ext_getElem <;> simp
    | vec1 c =>
      have hat : at' addScalar [fun i => .num (x i), fun _ => .num c] [] =
        fun i => x i + c := by funext i; rfl
      rw [hat]
      refine ⟨_, ?_, .inl rfl⟩
      by_cases h : n = 1
      · subst h
        simp [addMethod, vecShape]
      · simp only [addMethod, len, h, if_false, List.length_singleton, if_true, vecShape,
          Bool.false_eq_true]
        congr 3
        apply List.ext_getElem <;> simp
  | vec1 c =>
    cases h2 with
    | str s => simp [kind] at hdom
    | vec y =>
      have hat : at' addScalar [fun _ => .num c, fun i => .num (y i)] [] =
        fun i => c + y i := by funext i; rfl
      rw [hat]
      refine ⟨_, ?_, .inl rfl⟩
      simp only [addMethod, len, List.length_singleton, if_true, vecShape, Bool.false_eq_true,
        if_false]
      congr 3
      apply List.ext_getElem <;> simp
    | vec1 d =>
      have hn1 : n = 1 := by
        rcases hn with h | ⟨v, hv, h⟩ | ⟨p, hp, _⟩
        · exact h
        · simp [vecShape] at hv
          rcases hv with rfl | rfl <;> simpa [HasLength, eq_comm] using h
        · cases hp
      subst hn1
      have hat : at' addScalar [fun _ : Fin 1 => .num c, fun _ => .num d] [] =
        fun _ => c + d := by funext i; rfl
      rw [hat]
      refine ⟨_, ?_, .inl rfl⟩
      simp [addMethod, vecShape]

/-- A scalar and a vector: broadcast, element by element. -/
example : wrapper false addMethod [.num 1, .lst [3] [10, 20, 30]] [] =
    .ok (.one (.arr [3] [11, 21, 31])) := by
  simp [wrapper, isSymbolic, convertArg, shapeArg, addMethod, Except.map, toScalarRes, toScalar]
  norm_num

/-- A one-element list comes back as a number. -/
example : wrapper false addMethod [.num 1, .lst [1] [10]] [] = .ok (.one (.num 11)) := by
  simp [wrapper, isSymbolic, convertArg, shapeArg, addMethod, Except.map, toScalarRes, toScalar]
  norm_num

end Verif.Props
