import Verif.Model.Registry
import Verif.Spec.Registry
import Mathlib.Data.List.Perm.Basic
import Mathlib.Data.List.Infix
import Mathlib.Data.List.TakeWhile
import Mathlib.Data.List.Nodup

namespace Verif.Registry
open Verif.Tables Verif.Spec

theorem upC_eq_iff (c d : ℕ) : upC c = upC d ↔ SameLetter c d := by
  unfold upC SameLetter
  split_ifs <;> omega

theorem loC_eq_iff (c d : ℕ) : loC c = loC d ↔ SameLetter c d := by
  unfold loC SameLetter
  split_ifs <;> omega

theorem map_eq_iff {f : ℕ → ℕ} (hf : ∀ c d, f c = f d ↔ SameLetter c d) (s t : List ℕ) :
    s.map f = t.map f ↔ SameText s t := by
  unfold SameText
  induction s generalizing t with
  | nil => cases t <;> simp
  | cons c s ih =>
    cases t with
    | nil => simp
    | cons d t => simp [hf, ih]

theorem upper_eq_iff (s t : Str) : upper s = upper t ↔ SameText s t := map_eq_iff upC_eq_iff s t
theorem lower_eq_iff (s t : Str) : lower s = lower t ↔ SameText s t := map_eq_iff loC_eq_iff s t

theorem prefix_iff (p s : Str) : (upper p).isPrefixOf (upper s) = true ↔ PrefixCI p s := by
  rw [List.isPrefixOf_iff_prefix]
  unfold PrefixCI
  constructor
  · rintro ⟨t, ht⟩
    have hl : p.length ≤ s.length := by
      have := congrArg List.length ht
      simp [upper] at this
      omega
    refine ⟨s.take p.length, s.drop p.length, (List.take_append_drop _ _).symm, ?_⟩
    rw [← upper_eq_iff]
    have := congrArg (List.take p.length) ht
    simp only [upper] at this ⊢
    rw [List.map_take, ← this, List.take_left' (by simp)]
  · rintro ⟨a, b, rfl, h⟩
    rw [← upper_eq_iff] at h
    exact ⟨upper b, by rw [h]; simp [upper]⟩

theorem isIn_iff (p s : Str) : isIn p s = true ↔ ∃ a b, s = a ++ p ++ b := by
  unfold isIn
  rw [List.any_eq_true]
  constructor
  · rintro ⟨t, ht, hp⟩
    rw [List.mem_tails] at ht
    obtain ⟨a, ha⟩ := ht
    obtain ⟨b, hb⟩ := List.isPrefixOf_iff_prefix.1 hp
    exact ⟨a, b, by rw [← ha, ← hb, List.append_assoc]⟩
  · rintro ⟨a, b, rfl⟩
    refine ⟨p ++ b, ?_, List.isPrefixOf_iff_prefix.2 ⟨b, rfl⟩⟩
    rw [List.mem_tails]
    exact ⟨a, by simp⟩

theorem occurs_iff (p s : Str) : isIn (upper p) (upper s) = true ↔ OccursCI p s := by
  rw [isIn_iff]
  unfold OccursCI
  constructor
  · rintro ⟨a, b, h⟩
    have hl := congrArg List.length h
    simp only [upper, List.length_map, List.length_append] at hl
    refine ⟨s.take a.length, (s.drop a.length).take p.length, (s.drop a.length).drop p.length,
      by rw [List.append_assoc, List.take_append_drop, List.take_append_drop], ?_⟩
    rw [← upper_eq_iff]
    have h1 := congrArg (fun l => (l.drop a.length).take p.length) h
    simp only [upper, List.append_assoc, List.drop_left] at h1 ⊢
    rw [List.map_take, List.map_drop, h1, List.take_left' (by simp)]
  · rintro ⟨a, m, b, rfl, h⟩
    rw [← upper_eq_iff] at h
    exact ⟨upper a, upper b, by rw [h]; simp [upper]⟩

theorem isSpace_iff (c : ℕ) : isSpace c = true ↔ Blank c := by
  unfold isSpace Blank
  simp
  omega

theorem dropWhile_blank {a s : List ℕ} (ha : ∀ c ∈ a, Blank c)
    (hs : ∀ c, s.head? = some c → ¬ Blank c) : (a ++ s).dropWhile isSpace = s := by
  induction a with
  | nil =>
    cases s with
    | nil => rfl
    | cons c s =>
      have : isSpace c = false := by
        rw [← Bool.not_eq_true, isSpace_iff]; exact hs c rfl
      simp [this]
  | cons c a ih =>
    have hc : isSpace c = true := (isSpace_iff c).2 (ha c (by simp))
    rw [List.cons_append, List.dropWhile_cons_of_pos hc]
    exact ih fun d hd => ha d (by simp [hd])

theorem dropWhile_all_blank {a : List ℕ} (ha : ∀ c ∈ a, Blank c) : a.dropWhile isSpace = [] := by
  have := dropWhile_blank (s := []) ha (by simp)
  simpa using this

theorem strip_eq {s core : Str} (h : Stripped s core) : strip s = core := by
  obtain ⟨a, b, rfl, ha, hb, hh, hl⟩ := h
  unfold strip
  rw [List.append_assoc]
  rcases core.eq_nil_or_concat with rfl | ⟨l, x, rfl⟩
  · have : ∀ c ∈ a ++ ([] ++ b), Blank c := by
      intro c hc
      simp at hc
      rcases hc with h | h
      · exact ha c h
      · exact hb c h
    rw [dropWhile_all_blank this]; rfl
  · rw [dropWhile_blank ha, List.reverse_append, dropWhile_blank, List.reverse_reverse]
    · intro c hc; exact hb c (by simpa using hc)
    · intro c hc
      refine hl c ?_
      rw [← List.head?_reverse]; exact hc
    · intro c hc
      refine hh c ?_
      rcases l with _ | ⟨y, l⟩ <;> simpa using hc

theorem stripped_exists (s : Str) : ∃ core, Stripped s core := by
  refine ⟨strip s, s.takeWhile isSpace, ((s.dropWhile isSpace).reverse.takeWhile isSpace).reverse,
    ?_, ?_, ?_, ?_, ?_⟩
  · unfold strip
    rw [List.append_assoc, ← List.reverse_append, List.takeWhile_append_dropWhile,
      List.reverse_reverse, List.takeWhile_append_dropWhile]
  · intro c hc
    exact (isSpace_iff c).1 (List.mem_takeWhile_imp hc)
  · intro c hc
    exact (isSpace_iff c).1 (List.mem_takeWhile_imp (List.mem_reverse.1 hc))
  · intro c hc hb
    unfold strip at hc
    -- the head of the stripped string is the head of `dropWhile`
    have key : ∀ l : List ℕ, (∀ c, l.head? = some c → ¬ Blank c) → ∀ c,
        ((l.reverse.dropWhile isSpace).reverse).head? = some c → ¬ Blank c := by
      intro l hl c hc
      have hsuf : l.reverse.dropWhile isSpace <:+ l.reverse := List.dropWhile_suffix _
      obtain ⟨t, ht⟩ := hsuf
      have := congrArg List.reverse ht
      rw [List.reverse_append, List.reverse_reverse] at this
      refine hl c ?_
      rw [← this]
      cases h : (l.reverse.dropWhile isSpace).reverse with
      | nil => rw [h] at hc; simp at hc
      | cons x y => rw [h] at hc; simpa using hc
    refine key _ ?_ c hc hb
    intro d hd hbd
    have := List.head?_dropWhile_not isSpace s
    rw [hd] at this
    simp at this
    rw [← Bool.not_eq_true, isSpace_iff] at this
    exact this hbd
  · intro c hc hb
    unfold strip at hc
    rw [List.getLast?_reverse] at hc
    have := List.head?_dropWhile_not isSpace (s.dropWhile isSpace).reverse
    rw [hc] at this
    simp at this
    rw [← Bool.not_eq_true, isSpace_iff] at this
    exact this hb

theorem filter_first {β : Type} (p : β → Bool) (l : List β) :
    (l.filter p = [] ∧ ∀ x ∈ l, p x = false) ∨
    ∃ x t, l.filter p = x :: t ∧ FirstWith (fun y => p y = true) l x := by
  induction l with
  | nil => left; simp
  | cons a l ih =>
    by_cases h : p a = true
    · right
      exact ⟨a, l.filter p, by simp [h], [], l, rfl, h, by simp⟩
    · rcases ih with ⟨h1, h2⟩ | ⟨x, t, h1, c, d, h2, h3, h4⟩
      · left
        have h' : p a = false := by simpa using h
        refine ⟨by simp [h', h1], ?_⟩
        intro y hy
        rcases List.mem_cons.1 hy with rfl | hy
        · exact h'
        · exact h2 y hy
      · right
        refine ⟨x, t, by simp [h, h1], a :: c, d, by simp [h2], h3, ?_⟩
        intro y hy
        rcases List.mem_cons.1 hy with rfl | hy
        · exact h
        · exact h4 y hy

theorem firstWith_unique {β : Type} {p : β → Prop} {l : List β} {x y : β}
    (hx : FirstWith p l x) (hy : FirstWith p l y) : x = y := by
  obtain ⟨a, b, h1, h2, h3⟩ := hx
  obtain ⟨c, d, h4, h5, h6⟩ := hy
  induction l generalizing a c with
  | nil => simp at h1
  | cons z l ih =>
    cases a with
    | nil =>
      simp only [List.nil_append, List.cons.injEq] at h1
      cases c with
      | nil => simp only [List.nil_append, List.cons.injEq] at h4; rw [← h1.1, h4.1]
      | cons w c =>
        simp only [List.cons_append, List.cons.injEq] at h4
        have := h6 w (by simp)
        rw [← h4.1, h1.1] at this
        exact absurd h2 this
    | cons v a =>
      simp only [List.cons_append, List.cons.injEq] at h1
      cases c with
      | nil =>
        simp only [List.nil_append, List.cons.injEq] at h4
        have := h3 v (by simp)
        rw [← h1.1, h4.1] at this
        exact absurd h5 this
      | cons w c =>
        simp only [List.cons_append, List.cons.injEq] at h4
        exact ih a h1.2 (fun y hy => h3 y (by simp [hy])) c h4.2 (fun y hy => h6 y (by simp [hy]))

/-- What `engine` does, in terms of the specification. -/
theorem engine_spec (db : DB) {q core : Str} (hc : Stripped q core) :
    (∃ r, engine db q = .ok (r, q) ∧ FirstWith (fun r => PrefixCI core r.name) db.engines r) ∨
    (engine db q = .error .valueError ∧ ∀ r ∈ db.engines, ¬ PrefixCI core r.name) := by
  unfold engine
  simp only [strip_eq hc]
  rcases filter_first (fun r : EngineRow => (upper core).isPrefixOf (upper r.name)) db.engines with
    ⟨h1, h2⟩ | ⟨x, t, h1, h2⟩
  · right
    rw [h1]
    refine ⟨rfl, fun r hr => ?_⟩
    rw [← prefix_iff, h2 r hr]; simp
  · left
    rw [h1]
    refine ⟨x, rfl, ?_⟩
    obtain ⟨a, b, h3, h4, h5⟩ := h2
    exact ⟨a, b, h3, (prefix_iff _ _).1 h4, fun y hy h => h5 y hy ((prefix_iff _ _).2 h)⟩

/-! ## File name patterns -/

theorem pieces_lit {pre : Str} (h : ∀ c ∈ pre, c ≠ 42 ∧ c ≠ 63 ∧ c ≠ 91) (n : ℕ) (p : Str) :
    pieces (pre.length + n) (pre ++ p) = pre.map .lit ++ pieces n p := by
  induction pre with
  | nil => simp
  | cons c l ih =>
    have hc := h c (by simp)
    rw [List.length_cons, show l.length + 1 + n = (l.length + n) + 1 by omega, List.cons_append,
      pieces, if_neg hc.1, if_neg hc.2.1, if_neg hc.2.2, ih fun c hc => h c (by simp [hc])]
    rfl

theorem pieces_plain {s : Str} (h : ∀ c ∈ s, c ≠ 42 ∧ c ≠ 63 ∧ c ≠ 91) {n : ℕ} (hn : s.length ≤ n) :
    pieces n s = s.map .lit := by
  obtain ⟨k, rfl⟩ := Nat.exists_eq_add_of_le hn
  have := pieces_lit h k []
  simp only [List.append_nil] at this
  rw [this]
  cases k <;> simp [pieces]

theorem match_lits (pre : Str) (p : List Piece) (s : Str) :
    matchPieces (pre.map .lit ++ p) s = true ↔ ∃ t, s = pre ++ t ∧ matchPieces p t = true := by
  induction pre generalizing s with
  | nil => simp
  | cons c l ih =>
    cases s with
    | nil => simp [matchPieces]
    | cons d s =>
      simp only [List.map_cons, List.cons_append, matchPieces, fits, Bool.and_eq_true, beq_iff_eq,
        ih, List.cons.injEq]
      constructor
      · rintro ⟨rfl, t, rfl, h⟩; exact ⟨t, ⟨rfl, rfl⟩, h⟩
      · rintro ⟨t, ⟨rfl, rfl⟩, h⟩; exact ⟨rfl, t, rfl, h⟩

theorem splitSet_eq {neg : Bool} {body post : Str} (h0 : body ≠ []) (h1 : body.head? ≠ some 33)
    (h2 : 93 ∉ body) :
    splitSet ((if neg then [33] else []) ++ body ++ 93 :: post) = some (neg, body, post) := by
  obtain ⟨c, l, rfl⟩ := List.exists_cons_of_ne_nil h0
  have c1 : c ≠ 33 := by simpa using h1
  have c2 : c ≠ 93 := fun h => h2 (by simp [h])
  have tk : (c :: l ++ 93 :: post).takeWhile (· ≠ 93) = c :: l := by
    rw [List.takeWhile_append_of_pos]
    · simp
    · intro x hx
      simp only [ne_eq, decide_eq_true_eq]
      rintro rfl
      exact h2 hx
  have dr : (c :: l ++ 93 :: post).dropWhile (· ≠ 93) = 93 :: post := by
    rw [List.dropWhile_append_of_pos]
    · simp
    · intro x hx
      simp only [ne_eq, decide_eq_true_eq]
      rintro rfl
      exact h2 hx
  cases neg
  · unfold splitSet
    simp only [Bool.false_eq_true, if_false, List.nil_append]
    have : (c :: l ++ 93 :: post).head? = some c := rfl
    simp only [this, Option.some.injEq, c1, c2, if_false, List.length_nil, List.drop_zero, dr, tk,
      List.nil_append, decide_false]
  · unfold splitSet
    simp only [if_true]
    have e1 : ([33] ++ (c :: l) ++ 93 :: post).head? = some 33 := rfl
    have e2 : ([33] ++ (c :: l) ++ 93 :: post).tail = c :: l ++ 93 :: post := rfl
    have e3 : (c :: l ++ 93 :: post).head? = some c := rfl
    simp only [e1, e2, e3, if_true, Option.some.injEq, c2, if_false, List.length_nil,
      List.drop_zero, dr, tk, List.nil_append, decide_true]

theorem ranges_plain : ∀ {s : Str}, 45 ∉ s → ranges s = s.map fun c => (c, c)
  | [], _ => rfl
  | [c], _ => rfl
  | c :: d :: s, h => by
    have hd : d ≠ 45 := fun e => h (by simp [e])
    have ih := ranges_plain (s := d :: s) (fun e => h (by simp [List.mem_cons.1 e]))
    rw [List.map_cons, ← ih, ranges.eq_2 c (d :: s)]
    intro x t e
    exact hd (List.cons.inj e).1

theorem fits_set (neg : Bool) (s : Str) (d : ℕ) (h : 45 ∉ s) :
    fits (.set neg (ranges s)) d = true ↔ ((d ∈ s) ↔ neg = false) := by
  have : (ranges s).any (fun r => r.1 ≤ d && d ≤ r.2) = decide (d ∈ s) := by
    rw [ranges_plain h, Bool.eq_iff_iff]
    simp only [List.any_map, List.any_eq_true, Function.comp, Bool.and_eq_true, decide_eq_true_eq]
    constructor
    · rintro ⟨x, hx, h1, h2⟩
      obtain rfl := le_antisymm h1 h2
      exact hx
    · exact fun hx => ⟨d, hx, le_rfl, le_rfl⟩
  show ((ranges s).any (fun r => r.1 ≤ d && d ≤ r.2) != neg) = true ↔ _
  rw [this]
  cases neg <;> by_cases hd : d ∈ s <;> simp [hd]

theorem fits_range (neg : Bool) (a b d : ℕ) :
    fits (.set neg (ranges [a, 45, b])) d = true ↔ ((a ≤ d ∧ d ≤ b) ↔ neg = false) := by
  show (([(a, b)] : List (ℕ × ℕ)).any (fun r => r.1 ≤ d && d ≤ r.2) != neg) = true ↔ _
  simp only [List.any_cons, List.any_nil, Bool.or_false]
  cases neg <;> by_cases h1 : a ≤ d <;> by_cases h2 : d ≤ b <;> simp [h1, h2]

/-- A pattern with one set. -/
theorem fnmatch_set {neg : Bool} {pre body post : Str}
    (hp : ∀ c ∈ pre, c ≠ 42 ∧ c ≠ 63 ∧ c ≠ 91) (hq : ∀ c ∈ post, c ≠ 42 ∧ c ≠ 63 ∧ c ≠ 91)
    (h0 : body ≠ []) (h1 : body.head? ≠ some 33) (h2 : 93 ∉ body) (s : Str) :
    fnmatch (pre ++ 91 :: ((if neg then [33] else []) ++ body ++ 93 :: post)) s = true ↔
      ∃ d, s = pre ++ d :: post ∧ fits (.set neg (ranges body)) d = true := by
  unfold fnmatch
  rw [List.length_append, pieces_lit hp, List.length_cons, pieces, if_neg (by decide),
    if_neg (by decide), if_pos rfl, splitSet_eq h0 h1 h2, match_lits]
  simp only
  rw [pieces_plain hq (by simp; omega)]
  constructor
  · rintro ⟨t, rfl, h⟩
    cases t with
    | nil => simp [matchPieces] at h
    | cons d t =>
      simp only [matchPieces, Bool.and_eq_true] at h
      have := (match_lits post [] t).1 (by simpa using h.2)
      obtain ⟨r, rfl, hr⟩ := this
      obtain rfl : r = [] := by simpa [matchPieces] using hr
      exact ⟨d, by simp, h.1⟩
  · rintro ⟨d, rfl, h⟩
    refine ⟨d :: post, rfl, ?_⟩
    simp only [matchPieces, Bool.and_eq_true]
    refine ⟨h, ?_⟩
    have := (match_lits post [] post).2 ⟨[], by simp, by simp [matchPieces]⟩
    simpa using this


theorem glob_nomagic {β : Type} (files : List (Str × β)) {pat : Str} (h : hasMagic pat = false) :
    glob files pat = files.filter fun f => f.1 == pat := by
  unfold glob; simp [h]

theorem glob_exact {β : Type} {files : List (Str × β)} {pat : Str} {r : β}
    (h : hasMagic pat = false) (hn : (files.map (·.1)).Nodup) (hm : (pat, r) ∈ files) :
    glob files pat = [(pat, r)] := by
  rw [glob_nomagic files h]
  induction files with
  | nil => simp at hm
  | cons f l ih =>
    simp only [List.map_cons, List.nodup_cons] at hn
    rcases List.mem_cons.1 hm with rfl | hm
    · have : l.filter (fun f => f.1 == pat) = [] := by
        rw [List.filter_eq_nil_iff]
        intro g hg
        simp only [beq_iff_eq]
        rintro rfl
        exact hn.1 (List.mem_map.2 ⟨g, hg, rfl⟩)
      simp [this]
    · have : f.1 ≠ pat := by
        rintro rfl
        exact hn.1 (List.mem_map.2 ⟨_, hm, rfl⟩)
      have hb : (f.1 == pat) = false := by simpa using this
      rw [List.filter_cons_of_neg (by simp [hb]), ih hn.2 hm]

end Verif.Registry
