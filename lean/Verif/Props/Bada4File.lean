import Verif.Spec.Bada4File
import Verif.Lemmas.Registry

/-!
# C112: which BADA4 file is read, and what is read from it
-/

namespace Verif.Props
open Verif Verif.Bada4 Verif.Tables Verif.Registry Verif.Spec Verif.Spec.Bada4File

/-! ### The file -/

theorem upper_fixed {u : Str} (hu : ∀ c ∈ u, ¬ (97 ≤ c ∧ c ≤ 122)) : upper u = u := by
  unfold upper
  conv_rhs => rw [← List.map_id u]
  refine List.map_congr_left fun c hc => ?_
  have := hu c hc
  unfold upC
  rw [id, if_neg (by simpa using this)]

theorem firstWith_filter {β : Type} {p : β → Prop} [DecidablePred p] {l : List β} {x : β}
    (h : FirstWith p l x) : ∃ r, l.filter p = x :: r := by
  obtain ⟨a, b, rfl, hx, ha⟩ := h
  refine ⟨b.filter p, ?_⟩
  rw [List.filter_append, List.filter_eq_nil_iff.2 (by simpa using ha), List.nil_append,
    List.filter_cons_of_pos (by simpa using hx)]

/-- A directory name begins with `u`. -/
def Begins (u : Str) (d : Str × List (Str × Except PyError Elem)) : Prop := ∃ r, d.1 = u ++ r
/-- A visible file name ends with `.xml`. -/
def Xml (f : Str × Except PyError Elem) : Prop :=
  (∃ r, f.1 = r ++ [46, 120, 109, 108]) ∧ f.1.head? ≠ some 46

theorem startsWith_iff {u : Str} (hu : u ≠ []) (s : Str) : startsWith u s = true ↔ ∃ r, s = u ++ r := by
  unfold startsWith
  have : u.isEmpty = false := by cases u <;> simp_all
  rw [this]
  simp only [Bool.false_and, Bool.not_false, Bool.and_true, List.isPrefixOf_iff_prefix]
  constructor
  · rintro ⟨r, rfl⟩; exact ⟨r, rfl⟩
  · rintro ⟨r, rfl⟩; exact ⟨r, rfl⟩

theorem isXml_iff (f : Str × Except PyError Elem) : isXml f.1 = true ↔ Xml f := by
  unfold isXml Xml
  have e : chars ".xml" = [46, 120, 109, 108] := by decide
  rw [e, Bool.and_eq_true]
  refine and_congr ?_ ?_
  · rw [List.isSuffixOf_iff_suffix]
    constructor
    · rintro ⟨r, h⟩; exact ⟨r, h.symm⟩
    · rintro ⟨r, h⟩; exact ⟨r, h.symm⟩
  · cases f.1 with
    | nil => exact iff_of_true rfl (by simp)
    | cons c l =>
      show (!((46 == c) && List.isPrefixOf [] l)) = true ↔ _
      rw [List.isPrefixOf_nil_left, Bool.and_true, Bool.not_eq_true', beq_eq_false_iff_ne, List.head?_cons,
        ne_eq, ne_eq, Option.some.injEq, eq_comm]

/-- **C112 (choice of the file).** For a non-empty code whose upper-case form is `u`: the first directory
listed whose name begins with `u` is taken, and in it the first visible `.xml` file listed. ValueError if
there is no such directory; IndexError if the one taken has no such file, even if another has. -/
theorem C112_choice (dir : Dir) (ac u : Str) (hac : u ≠ []) (hu : SameText u ac)
    (hU : ∀ c ∈ u, ¬ (97 ≤ c ∧ c ≤ 122)) :
    ((∀ d ∈ dir, ¬ Begins u d) → load dir ac = .error .valueError) ∧
    (∀ d, FirstWith (Begins u) dir d → (∀ f ∈ d.2, ¬ Xml f) → load dir ac = .error .indexError) ∧
    (∀ d f, FirstWith (Begins u) dir d → FirstWith Xml d.2 f → load dir ac = f.2) := by
  have e : upper ac = u := by rw [← (upper_eq_iff u ac).2 hu, upper_fixed hU]
  classical
  have h1 : (fun d : Str × List (Str × Except PyError Elem) => startsWith (upper ac) d.1) =
      fun d => decide (Begins u d) := by
    funext d
    rw [e, Bool.eq_iff_iff, startsWith_iff hac, decide_eq_true_iff]
    rfl
  have h2 : (fun f : Str × Except PyError Elem => isXml f.1) = fun f => decide (Xml f) := by
    funext f
    rw [Bool.eq_iff_iff, isXml_iff, decide_eq_true_iff]
  unfold load
  rw [h1, h2]
  refine ⟨fun h => ?_, fun d h hf => ?_, fun d f h hf => ?_⟩
  · rw [List.filter_eq_nil_iff.2 (by simpa using h)]
  · obtain ⟨r, hr⟩ := firstWith_filter h
    rw [hr]
    simp only
    rw [List.filter_eq_nil_iff.2 (by simpa using hf)]
  · obtain ⟨r, hr⟩ := firstWith_filter h
    obtain ⟨s, hs⟩ := firstWith_filter hf
    rw [hr]
    simp only
    rw [hs]

/-- **C112 (letter case).** The case of the code does not matter. -/
theorem C112_case (dir : Dir) (ac ac' : Str) (h : SameText ac ac') : load dir ac = load dir ac' := by
  unfold load
  rw [(upper_eq_iff ac ac').2 h]

/-- **C112 (ambiguous codes).** An exact directory name is not preferred: with directories `A32` and
`A320-231` both present, `a32` gives whichever is listed first. -/
theorem C112_order (x y : Elem) :
    let a : Str × List (Str × Except PyError Elem) := (chars "A32", [(chars "A32.xml", .ok x)])
    let b : Str × List (Str × Except PyError Elem) := (chars "A320-231", [(chars "A320-231.xml", .ok y)])
    load [a, b] (chars "a32") = .ok x ∧ load [b, a] (chars "a32") = .ok y := by
  constructor <;> rfl

/-! ### The elements -/

/-- Selection from one element. -/
def sel : Elem → List Str → List Elem
  | e, [] => [e]
  | e, t :: p => (e.children.filter fun c => c.tag == t).flatMap fun c => sel c p

theorem fold_sel (p : List Str) (es : List Elem) :
    (p.map Step.child).foldl (fun es s => s.run es) es = es.flatMap fun e => sel e p := by
  induction p generalizing es with
  | nil =>
    simp only [List.map_nil, List.foldl_nil]
    induction es with
    | nil => rfl
    | cons e es ih => rw [List.flatMap_cons, ← ih]; rfl
  | cons t p ih =>
    rw [List.map_cons, List.foldl_cons, ih, Step.run, List.flatMap_assoc]
    rfl

theorem walks_ne : ∀ (cs : List Elem), ∀ w ∈ walks cs, w.1 ≠ []
  | [], w, h => by rw [walks] at h; cases h
  | c :: cs, w, h => by
    rw [walks] at h
    simp only [List.cons_append, List.mem_cons, List.mem_append, List.mem_map] at h
    rcases h with rfl | ⟨v, -, rfl⟩ | h
    · simp
    · simp
    · exact walks_ne cs w h

theorem walk_ne (e : Elem) : ∀ w ∈ walk e, w.1 ≠ [] := by
  cases e with
  | mk t x cs => rw [walk]; exact walks_ne cs

theorem sel_walk (p : List Str) (hp : p ≠ []) (e : Elem) :
    sel e p = ((walk e).filter fun w => w.1 = p).map Prod.snd := by
  induction p generalizing e with
  | nil => exact absurd rfl hp
  | cons t p ih =>
    obtain ⟨tag, x, cs⟩ := e
    rw [sel, walk]
    simp only [Elem.children]
    induction cs with
    | nil => rw [walks]; rfl
    | cons c cs ihc =>
      rw [walks, List.cons_append, List.filter_cons, List.filter_cons, List.filter_append]
      have hmap : (((walk c).map fun w => (c.tag :: w.1, w.2)).filter fun w => w.1 = t :: p).map Prod.snd =
          if c.tag = t then ((walk c).filter fun w => w.1 = p).map Prod.snd else [] := by
        rw [List.filter_map, List.map_map]
        split_ifs with h
        · subst h
          congr 1
          refine List.filter_congr fun w _ => ?_
          simp
        · rw [List.filter_eq_nil_iff.2]
          · rfl
          · intro w _
            simp [h]
      by_cases h : c.tag = t
      · rw [if_pos h] at hmap
        have hb : (c.tag == t) = true := by simp [h]
        rw [if_pos hb, List.flatMap_cons]
        by_cases hp' : p = []
        · subst hp'
          have hno : (walk c).filter (fun w => w.1 = []) = [] := by
            rw [List.filter_eq_nil_iff]
            intro w hw
            simpa using walk_ne c w hw
          rw [if_pos (by simp [h]), List.map_cons, List.map_append, hmap, hno, ihc, sel]
          rfl
        · rw [if_neg (by simpa [h] using (Ne.symm hp')), List.map_append, hmap, ihc, ih hp']
      · rw [if_neg h] at hmap
        have hb : ¬ (c.tag == t) = true := by simp [h]
        rw [if_neg hb, if_neg (by simp [h]), List.map_append, hmap, ihc, List.nil_append]

mutual
theorem inside_walk : ∀ e : Elem, e.inside = (walk e).map Prod.snd
  | .mk _ _ cs => by rw [Elem.inside, walk, insideList_walks cs]
theorem insideList_walks : ∀ cs : List Elem, insideList cs = (walks cs).map Prod.snd
  | [] => by rw [insideList, walks]; rfl
  | c :: cs => by
    rw [insideList, walks, List.map_append, List.map_cons, List.map_map, inside_walk c,
      insideList_walks cs]
    rfl
end

theorem tags_eq (p : List String) : tags p = (codes p).map Step.child := by
  unfold tags codes
  rw [List.map_map]
  rfl

/-- **C112 (paths).** `./a/b` selects, in document order, the elements reached by exactly these tags;
`.//*/a/b` selects them below every element other than the root, by document order of that element. -/
theorem C112_paths (x : Elem) (p : List String) (hp : p ≠ []) :
    findall x (tags p) = at_ x p ∧ findall x (.any :: tags p) = anywhere x p := by
  have hc : codes p ≠ [] := by simpa [codes] using hp
  constructor
  · unfold findall at_
    rw [tags_eq, fold_sel, List.flatMap_singleton, sel_walk _ hc]
  · unfold findall anywhere
    rw [List.foldl_cons, tags_eq, fold_sel, Step.run, List.flatMap_singleton, inside_walk,
      List.flatMap_map]
    refine List.flatMap_congr fun w _ => ?_
    rw [sel_walk _ hc]
    rfl

/-! ### The parameters -/

theorem number_iff (num : Str → Option ℝ) (x : Elem) (p : List Step) (r : ℝ) :
    number num x p = .ok r ↔ First num (findall x p) r := by
  unfold number First
  cases findall x p with
  | nil => simp
  | cons e l =>
    simp only [List.cons.injEq]
    constructor
    · intro h
      refine ⟨e, l, ⟨rfl, rfl⟩, ?_⟩
      cases hn : num (e.text.getD []) <;> rw [hn] at h <;> cases h
      rfl
    · rintro ⟨e', l', ⟨rfl, rfl⟩, h⟩
      rw [h]

theorem bind_ok_iff {ε α β : Type} (x : Except ε α) (f : α → Except ε β) (b : β) :
    (x >>= f) = .ok b ↔ ∃ a, x = .ok a ∧ f a = .ok b := by
  cases x with
  | error e =>
    constructor
    · intro h; cases h
    · rintro ⟨a, h, -⟩; cases h
  | ok a =>
    constructor
    · intro h; exact ⟨a, rfl, h⟩
    · rintro ⟨a', h, h'⟩; cases h; exact h'

theorem mapM_ok_iff {α β : Type} (f : α → Except PyError β) (l : List α) (v : List β) :
    l.mapM f = .ok v ↔ List.Forall₂ (fun a b => f a = .ok b) l v := by
  induction l generalizing v with
  | nil =>
    rw [List.mapM_nil]
    constructor
    · intro h; cases h; exact .nil
    · intro h; cases h; rfl
  | cons e l ih =>
    rw [List.mapM_cons, bind_ok_iff]
    simp only [bind_ok_iff, ih]
    constructor
    · rintro ⟨a, h1, w, h2, h3⟩
      cases h3
      exact .cons h1 h2
    · intro h
      cases h with
      | cons h t => exact ⟨_, h, _, t, rfl⟩

theorem nums_iff (num : Str → Option ℝ) (x : Elem) (p : List Step) (v : List ℝ) :
    nums num x p = .ok v ↔ Numbers num (findall x p) v := by
  unfold nums Numbers
  rw [mapM_ok_iff]
  refine iff_of_eq (congrArg (fun R => List.Forall₂ R (findall x p) v) ?_)
  funext a b
  apply propext
  cases a.text with
  | none => simp
  | some s => cases hn : num s <;> simp [hn]

theorem at_num {num : Str → Option ℝ} {x : Elem} {p : List String} (hp : p ≠ []) (r : ℝ) :
    number num x (tags p) = .ok r ↔ First num (at_ x p) r := by
  rw [number_iff, (C112_paths x p hp).1]

theorem at_nums {num : Str → Option ℝ} {x : Elem} {p : List String} (hp : p ≠ []) (v : List ℝ) :
    nums num x (tags p) = .ok v ↔ Numbers num (at_ x p) v := by
  rw [nums_iff, (C112_paths x p hp).1]

theorem any_num {num : Str → Option ℝ} {x : Elem} {p : List String} (hp : p ≠ []) (r : ℝ) :
    number num x (.any :: tags p) = .ok r ↔ First num (anywhere x p) r := by
  rw [number_iff, (C112_paths x p hp).2]

theorem any_nums {num : Str → Option ℝ} {x : Elem} {p : List String} (hp : p ≠ []) (v : List ℝ) :
    nums num x (.any :: tags p) = .ok v ↔ Numbers num (anywhere x p) v := by
  rw [nums_iff, (C112_paths x p hp).2]

/-- **C112 (thrust).** Exactly which documents `Thrust` accepts and which parameters it takes from them. -/
theorem C112_thrust (num : Str → Option ℝ) (x : Elem) (o : Bada4.Thrust) :
    mkThrust num (.ok x) = .ok o ↔
      First num (at_ x ["PFM", "MREF"]) o.mref ∧
      Numbers num (at_ x ["PFM", "TFM", "CT", "a"]) o.a ∧
      Numbers num (at_ x ["PFM", "TFM", "LIDL", "CT", "ti"]) o.ti ∧
      First num (at_ x ["PFM", "TFM", "MCRZ", "kink"]) o.kink.1 ∧
      Numbers num (at_ x ["PFM", "TFM", "MCRZ", "flat_rating", "b"]) o.b.1 ∧
      Numbers num (at_ x ["PFM", "TFM", "MCRZ", "temp_rating", "c"]) o.c.1 ∧
      First num (at_ x ["PFM", "TFM", "MCMB", "kink"]) o.kink.2 ∧
      Numbers num (at_ x ["PFM", "TFM", "MCMB", "flat_rating", "b"]) o.b.2 ∧
      Numbers num (at_ x ["PFM", "TFM", "MCMB", "temp_rating", "c"]) o.c.2 := by
  unfold mkThrust
  simp only [bind_ok_iff, Except.ok.injEq, exists_eq_left', pure, Except.pure]
  simp only [at_num (List.cons_ne_nil _ _), at_nums (List.cons_ne_nil _ _)]
  constructor
  · rintro ⟨m, h1, a, h2, ti, h3, k1, h4, b1, h5, c1, h6, k2, h7, b2, h8, c2, h9, rfl⟩
    exact ⟨h1, h2, h3, h4, h5, h6, h7, h8, h9⟩
  · rintro ⟨h1, h2, h3, h4, h5, h6, h7, h8, h9⟩
    exact ⟨_, h1, _, h2, _, h3, _, h4, _, h5, _, h6, _, h7, _, h8, _, h9, rfl⟩

/-- **C112 (drag).** The same for `Drag`, once NumPy is supplied as `sci`. -/
theorem C112_drag (num : Str → Option ℝ) (x : Elem) (o : Bada4.Drag) :
    mkDrag true num (.ok x) = .ok o ↔
      First num (anywhere x ["DPM_clean", "scalar"]) o.scalar ∧
      Numbers num (anywhere x ["CD_clean", "d"]) o.d ∧
      First num (anywhere x ["DPM_clean", "M_max"]) o.machMax ∧
      First num (at_ x ["AFCM", "S"]) o.area := by
  unfold mkDrag
  simp only [need, if_true, bind_ok_iff, Except.ok.injEq, exists_eq_left', pure, Except.pure]
  simp only [at_num (List.cons_ne_nil _ _), any_num (List.cons_ne_nil _ _), any_nums (List.cons_ne_nil _ _)]
  constructor
  · rintro ⟨m, h1, -, -, d, h2, k, h3, s, h4, rfl⟩
    exact ⟨h1, h2, h3, h4⟩
  · rintro ⟨h1, h2, h3, h4⟩
    exact ⟨_, h1, (), trivial, _, h2, _, h3, _, h4, rfl⟩

/-- **C112 (fuel flow).** `FuelFlow` builds its thrust and drag from the same document. -/
theorem C112_fuel (num : Str → Option ℝ) (x : Elem) (o : Bada4.FuelFlow) :
    mkFuelFlow true num (.ok x) = .ok o ↔
      mkThrust num (.ok x) = .ok o.thrust ∧ mkDrag true num (.ok x) = .ok o.drag ∧
      First num (at_ x ["PFM", "MREF"]) o.massRef ∧
      Numbers num (at_ x ["PFM", "TFM", "CF", "f"]) o.f ∧
      Numbers num (at_ x ["PFM", "TFM", "LIDL", "CF", "fi"]) o.fi ∧
      First num (at_ x ["PFM", "LHV"]) o.lhv := by
  unfold mkFuelFlow
  simp only [bind_ok_iff, pure, Except.pure]
  simp only [at_num (List.cons_ne_nil _ _), at_nums (List.cons_ne_nil _ _), Except.ok.injEq]
  constructor
  · rintro ⟨t, h1, d, h2, y, rfl, m, h3, f, h4, fi, h5, l, h6, rfl⟩
    exact ⟨h1, h2, h3, h4, h5, h6⟩
  · rintro ⟨h1, h2, h3, h4, h5, h6⟩
    exact ⟨_, h1, _, h2, _, rfl, _, h3, _, h4, _, h5, _, h6, rfl⟩

/-- `.//*/A/d` does not see an `A` directly below the root, and orders by the parent: the value below the
outer `A` comes before the one below an `A` nested in an earlier sibling. -/
example :
    let d := fun n => Elem.mk (chars "d") (some [n]) []
    let A := fun cs => Elem.mk (chars "A") none cs
    let B := fun cs => Elem.mk (chars "B") none cs
    anywhere (A [A [d 1], B [B [A [d 2]], A [d 3]]]) ["A", "d"] = [d 3, d 2] := by
  simp [anywhere, at_, walk, walks, codes, chars, Elem.tag]

end Verif.Props
