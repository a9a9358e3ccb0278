import Verif.Model.Files
import Verif.Lemmas.Registry
import Verif.Spec.Files

/-!
# Patterns with a fixed ending, and paths
-/

namespace Verif.Files
open Verif.Tables Verif.Registry

/-! ## Patterns with a fixed ending -/

theorem splitSet_append {p e : Str} (he : 93 ∉ e) :
    splitSet (p ++ e) = (splitSet p).map fun x => (x.1, x.2.1, x.2.2 ++ e) := by
  have none' : ∀ q : Str, 93 ∉ q → q.dropWhile (· ≠ 93) = [] := by
    intro q hq
    rw [List.dropWhile_eq_nil_iff]
    intro x hx
    simp only [ne_eq, decide_eq_true_eq]
    rintro rfl
    exact hq hx
  -- the part after a possible `!` and a possible `]`
  have core : ∀ (b : Bool) (f q : Str),
      (match (q ++ e).dropWhile (· ≠ 93) with
        | [] => none
        | _ :: rest => some (b, f ++ (q ++ e).takeWhile (· ≠ 93), rest)) =
      (match q.dropWhile (· ≠ 93) with
        | [] => none
        | _ :: rest => some (b, f ++ q.takeWhile (· ≠ 93), rest)).map
          fun x : Bool × Str × Str => (x.1, x.2.1, x.2.2 ++ e) := by
    intro b f q
    by_cases hq : 93 ∈ q
    · induction q with
      | nil => simp at hq
      | cons c q ih =>
        by_cases hc : c = 93
        · subst hc; simp
        · have hq' : 93 ∈ q := by
            rcases List.mem_cons.1 hq with h | h
            · exact absurd h.symm hc
            · exact h
          have h1 : (q ++ e).dropWhile (· ≠ 93) = q.dropWhile (· ≠ 93) ++ e := by
            rw [List.dropWhile_append, if_neg]
            rw [List.isEmpty_iff, List.dropWhile_eq_nil_iff]
            intro h
            simpa using h _ hq'
          have h2 : (q ++ e).takeWhile (· ≠ 93) = q.takeWhile (· ≠ 93) := by
            rw [List.takeWhile_append, if_neg]
            intro h
            have := List.takeWhile_eq_self_iff.1 ((List.takeWhile_prefix (p := fun x : ℕ => decide (x ≠ 93)) (l := q)).eq_of_length h)
            simpa using this _ hq'
          have d : (fun x : ℕ => decide (x ≠ 93)) c = true := by simpa using hc
          have d1 : ∀ l : Str, (c :: l).dropWhile (· ≠ 93) = l.dropWhile (· ≠ 93) :=
            fun l => List.dropWhile_cons_of_pos d
          have d2 : ∀ l : Str, (c :: l).takeWhile (· ≠ 93) = c :: l.takeWhile (· ≠ 93) :=
            fun l => List.takeWhile_cons_of_pos d
          rw [List.cons_append, d1, d1, d2, d2, h1, h2]
          have hn : q.dropWhile (· ≠ 93) ≠ [] := by
            intro hd
            rw [List.dropWhile_eq_nil_iff] at hd
            have := hd _ hq'
            simp at this
          generalize q.dropWhile (· ≠ 93) = t at hn
          rcases t with _ | ⟨x, r⟩
          · exact absurd rfl hn
          · rfl
    · have h1 := none' q hq
      have h2 := none' (q ++ e) (by simp [hq, he])
      rw [h1, h2]
      rfl
  have bang : ∀ (b : Bool) (q : Str),
      (let first := if (q ++ e).head? = some 93 then [93] else []
       let q' := (q ++ e).drop first.length
       match q'.dropWhile (· ≠ 93) with
        | [] => none
        | _ :: rest => some (b, first ++ q'.takeWhile (· ≠ 93), rest)) =
      (let first := if q.head? = some 93 then [93] else []
       let q' := q.drop first.length
       match q'.dropWhile (· ≠ 93) with
        | [] => none
        | _ :: rest => some (b, first ++ q'.takeWhile (· ≠ 93), rest)).map
          fun x : Bool × Str × Str => (x.1, x.2.1, x.2.2 ++ e) := by
    intro b q
    rcases q with _ | ⟨c, q⟩
    · have h : e.head? ≠ some 93 := fun h => he (List.mem_of_mem_head? h)
      simp only [List.nil_append, if_neg h, List.length_nil, List.drop_zero, none' e he]
      simp
    · by_cases hc : c = 93
      · subst hc
        simpa using core b [93] q
      · simpa [hc] using core b [] (c :: q)
  rcases p with _ | ⟨c, p⟩
  · have h0 : splitSet [] = none := by simp [splitSet]
    rw [List.nil_append, h0]
    unfold splitSet
    have key : ∀ q : Str, 93 ∉ q → (let first : Str := if q.head? = some 93 then [93] else []
        let q' := q.drop first.length
        (match q'.dropWhile (· ≠ 93) with
        | [] => none
        | _ :: rest => some ((decide (e.head? = some 33), first ++ q'.takeWhile (· ≠ 93), rest) :
            Bool × Str × Str))) = none := by
      intro q hq
      have h : q.head? ≠ some 93 := fun h => hq (List.mem_of_mem_head? h)
      simp only [if_neg h, List.length_nil, List.drop_zero, none' q hq]
    refine (key _ ?_).trans (by simp)
    split_ifs
    · exact fun h => he (List.mem_of_mem_tail h)
    · exact he
  · by_cases hc : c = 33
    · subst hc
      exact bang true p
    · have h2 : ∀ l : Str, (if (c :: l).head? = some 33 then (c :: l).tail else c :: l) = c :: l :=
        fun l => if_neg (by simpa using hc)
      unfold splitSet
      rw [List.cons_append, h2, h2]
      have h3 : ∀ l : Str, decide ((c :: l).head? = some 33) = false := fun l => by simpa using hc
      rw [h3, h3]
      exact bang false (c :: p)

theorem splitSet_length {p : Str} {b : Bool} {s r : Str} (h : splitSet p = some (b, s, r)) :
    r.length < p.length := by
  unfold splitSet at h
  simp only at h
  split at h
  · cases h
  · next x rest hd =>
    simp only [Option.some.injEq, Prod.mk.injEq] at h
    obtain ⟨-, -, rfl⟩ := h
    have h1 := List.Sublist.length_le (List.dropWhile_sublist (p := fun x : ℕ => decide (x ≠ 93))
      (l := ((if p.head? = some 33 then p.tail else p).drop
        (if (if p.head? = some 33 then p.tail else p).head? = some 93 then [93] else ([] : Str)).length)))
    rw [hd] at h1
    simp only [List.length_cons, List.length_drop] at h1
    have h2 : (if p.head? = some 33 then p.tail else p).length ≤ p.length := by
      split_ifs <;> simp
    omega

theorem pieces_append {e : Str} (hp : ∀ c ∈ e, c ≠ 42 ∧ c ≠ 63 ∧ c ≠ 91) (he : 93 ∉ e) :
    ∀ (n m : ℕ) (p : Str), p.length ≤ n → p.length + e.length ≤ m →
      pieces m (p ++ e) = pieces n p ++ e.map .lit
  | n, m, [], _, hm => by
    rw [List.nil_append, pieces_plain hp (by simpa using hm)]
    cases n <;> simp [pieces]
  | 0, _, c :: p, hn, _ => by simp at hn
  | n + 1, 0, c :: p, _, hm => by simp at hm
  | n + 1, m + 1, c :: p, hn, hm => by
    simp only [List.length_cons] at hn hm
    have ih := pieces_append hp he n m p (by omega) (by omega)
    rw [List.cons_append, pieces, pieces, splitSet_append he, ih]
    split_ifs
    · rfl
    · rfl
    · rcases hs : splitSet p with _ | ⟨b, s, r⟩
      · rfl
      · have hl := splitSet_length hs
        simp only [Option.map_some]
        rw [pieces_append hp he n m r (by omega) (by omega)]
        rfl
    · rfl

theorem match_append {e : Str} (he : e ≠ []) : ∀ (P : List Piece) (n : Str),
    matchPieces (P ++ e.map .lit) n = true ↔ ∃ s, n = s ++ e ∧ matchPieces P s = true
  | [], n => by
    have := match_lits e [] n
    rw [List.append_nil] at this
    rw [List.nil_append, this]
    constructor
    · rintro ⟨t, rfl, h⟩
      obtain rfl : t = [] := by simpa [matchPieces] using h
      exact ⟨[], by simp, by simp [matchPieces]⟩
    · rintro ⟨s, rfl, h⟩
      obtain rfl : s = [] := by simpa [matchPieces] using h
      exact ⟨[], by simp, by simp [matchPieces]⟩
  | .star :: P, n => by
    simp only [List.cons_append, matchPieces, List.any_eq_true, List.mem_tails]
    constructor
    · rintro ⟨t, ⟨u, rfl⟩, h⟩
      obtain ⟨s, rfl, h'⟩ := (match_append he P t).1 h
      exact ⟨u ++ s, by simp, s, ⟨u, rfl⟩, h'⟩
    · rintro ⟨s, rfl, t, ⟨u, rfl⟩, h⟩
      exact ⟨t ++ e, ⟨u, by simp⟩, (match_append he P _).2 ⟨t, rfl, h⟩⟩
  | .any :: P, [] => by
    simp only [List.cons_append, matchPieces, Bool.false_eq_true, false_iff]
    rintro ⟨s, h, -⟩
    exact he (List.append_eq_nil_iff.1 h.symm).2
  | .lit c :: P, [] => by
    simp only [List.cons_append, matchPieces, Bool.false_eq_true, false_iff]
    rintro ⟨s, h, -⟩
    exact he (List.append_eq_nil_iff.1 h.symm).2
  | .set b r :: P, [] => by
    simp only [List.cons_append, matchPieces, Bool.false_eq_true, false_iff]
    rintro ⟨s, h, -⟩
    exact he (List.append_eq_nil_iff.1 h.symm).2
  | .any :: P, d :: n => by
    simp only [List.cons_append, matchPieces, Bool.and_eq_true, match_append he P n]
    constructor
    · rintro ⟨h1, s, rfl, h⟩
      exact ⟨d :: s, rfl, by simpa only [matchPieces, Bool.and_eq_true] using ⟨h1, h⟩⟩
    · rintro ⟨s, h, hs⟩
      rcases s with _ | ⟨x, s⟩
      · simp at hs
      · simp only [List.cons_append, List.cons.injEq] at h
        obtain ⟨rfl, rfl⟩ := h
        simp only [Bool.and_eq_true] at hs
        exact ⟨hs.1, s, rfl, hs.2⟩
  | .lit c :: P, d :: n => by
    simp only [List.cons_append, matchPieces, Bool.and_eq_true, match_append he P n]
    constructor
    · rintro ⟨h1, s, rfl, h⟩
      exact ⟨d :: s, rfl, by simpa only [matchPieces, Bool.and_eq_true] using ⟨h1, h⟩⟩
    · rintro ⟨s, h, hs⟩
      rcases s with _ | ⟨x, s⟩
      · simp at hs
      · simp only [List.cons_append, List.cons.injEq] at h
        obtain ⟨rfl, rfl⟩ := h
        simp only [Bool.and_eq_true] at hs
        exact ⟨hs.1, s, rfl, hs.2⟩
  | .set b r :: P, d :: n => by
    simp only [List.cons_append, matchPieces, Bool.and_eq_true, match_append he P n]
    constructor
    · rintro ⟨h1, s, rfl, h⟩
      exact ⟨d :: s, rfl, by simpa only [matchPieces, Bool.and_eq_true] using ⟨h1, h⟩⟩
    · rintro ⟨s, h, hs⟩
      rcases s with _ | ⟨x, s⟩
      · simp at hs
      · simp only [List.cons_append, List.cons.injEq] at h
        obtain ⟨rfl, rfl⟩ := h
        simp only [Bool.and_eq_true] at hs
        exact ⟨hs.1, s, rfl, hs.2⟩

/-- A name fits a pattern with a fixed ending if it has the ending and its beginning fits. -/
theorem fnmatch_append {p e n : Str} (h0 : e ≠ []) (hp : ∀ c ∈ e, c ≠ 42 ∧ c ≠ 63 ∧ c ≠ 91)
    (he : 93 ∉ e) : fnmatch (p ++ e) n = true ↔ ∃ s, n = s ++ e ∧ fnmatch p s = true := by
  unfold fnmatch
  rw [pieces_append hp he p.length _ p le_rfl (by simp), match_append h0]

theorem hasMagic_append (p e : Str) (hp : ∀ c ∈ e, c ≠ 42 ∧ c ≠ 63 ∧ c ≠ 91) :
    hasMagic (p ++ e) = hasMagic p := by
  unfold hasMagic
  rw [List.any_append]
  have : e.any (fun c => c == 42 || c == 63 || c == 91) = false := by
    rw [List.any_eq_false]
    intro c hc
    have := hp c hc
    simp [this.1, this.2.1, this.2.2]
  rw [this, Bool.or_false]

/-! ## Paths -/

section
variable {β : Type} {fs : Disk β}

theorem walk_append (cur a b : List Str) :
    walk fs cur (a ++ b) = (walk fs cur a).bind fun x => walk fs x b := by
  induction a generalizing cur with
  | nil => simp [walk]
  | cons c a ih =>
    simp only [List.cons_append, walk]
    split_ifs
    · exact ih _
    · exact ih _
    · exact ih _
    · rfl
    · rfl

theorem lexists_append {a b : List Str} (h : lexists fs (a ++ b) = true) : lexists fs a = true := by
  unfold lexists at *
  rw [walk_append] at h
  rcases hw : walk fs [] a with _ | x
  · rw [hw] at h; exact absurd h (by simp)
  · rfl

theorem isDir_iff {p : List Str} : isDir fs p = true ↔
    p = [] ∨ ∃ f ∈ fs, p <+: f.1 ∧ p.length < f.1.length := by
  simp [isDir, List.isEmpty_iff, List.isPrefixOf_iff_prefix]

theorem isFile_iff {p : List Str} : isFile fs p = true ↔ ∃ f ∈ fs, f.1 = p := by
  simp [isFile]

/-- Above a file or directory there are directories. -/
theorem isDir_of_prefix {p q : List Str} (h : isDir fs q = true ∨ isFile fs q = true) (hp : p <+: q)
    (hl : p.length < q.length) : isDir fs p = true := by
  rw [isDir_iff] at *
  rcases h with h | h
  · rcases h with rfl | ⟨f, hf, h1, h2⟩
    · simp at hl
    · exact .inr ⟨f, hf, hp.trans h1, by omega⟩
  · obtain ⟨f, hf, rfl⟩ := isFile_iff.1 h
    exact .inr ⟨f, hf, hp, hl⟩

/-- Names that stand for themselves. -/
def Down (p : List Str) : Prop := ∀ c ∈ p, c ≠ [46] ∧ c ≠ [46, 46]

theorem walk_down {p cur : List Str} (hp : Down p)
    (h : isDir fs (cur ++ p) = true ∨ isFile fs (cur ++ p) = true) : walk fs cur p = some (cur ++ p) := by
  induction p generalizing cur with
  | nil => simp [walk]
  | cons c p ih =>
    have hc := hp c (by simp)
    have e : cur ++ c :: p = (cur ++ [c]) ++ p := by simp
    have d : isDir fs cur = true := isDir_of_prefix h (by simp) (by simp)
    rw [walk, if_pos d, if_neg hc.1, if_neg hc.2, if_pos, ih (fun x hx => hp x (by simp [hx])), ← e]
    · rw [← e]; exact h
    · rw [Bool.or_eq_true]
      rcases p with _ | ⟨x, p⟩
      · exact h
      · exact .inl (isDir_of_prefix h (by simp) (by simp))

theorem walk_up {cur : List Str} (h : isDir fs cur = true) :
    ∀ k, k ≤ cur.length → walk fs cur (List.replicate k [46, 46]) = some (cur.take (cur.length - k))
  | 0, _ => by simp [walk]
  | k + 1, hk => by
    have hd : isDir fs cur.dropLast = true := by
      rcases cur with _ | ⟨c, l⟩
      · simp at hk
      · exact isDir_of_prefix (.inl h) (List.dropLast_prefix _) (by simp)
    rw [List.replicate_succ, walk, if_pos h, if_neg (by decide), if_pos rfl,
      walk_up hd k (by simp; omega), List.length_dropLast, List.dropLast_eq_take, List.take_take]
    congr 2
    omega

/-- The end of a path followed downwards. -/
theorem walk_last {p : List Str} {c : Str} {cur q : List Str} (hc : c ≠ [46] ∧ c ≠ [46, 46])
    (h : walk fs cur (p ++ [c]) = some q) : ∃ r, walk fs cur p = some r ∧ q = r ++ [c] ∧
      (isDir fs q = true ∨ isFile fs q = true) := by
  rw [walk_append] at h
  rcases hr : walk fs cur p with _ | r
  · rw [hr] at h; simp at h
  · rw [hr] at h
    simp only [Option.bind_some, walk, if_neg hc.1, if_neg hc.2] at h
    split_ifs at h with h1 h2
    · obtain rfl := Option.some.inj h
      exact ⟨r, rfl, rfl, by simpa using h2⟩

/-! ## `glob` -/

theorem glob_append (ds : List (List Str)) (a : List Str) (c : Str) (b : List Str) :
    glob fs ds (a ++ c :: b) = glob fs (a.foldl (fun ds c => ds.flatMap (expand fs false c)) ds)
      (c :: b) := by
  induction a generalizing ds with
  | nil => rfl
  | cons x a ih =>
    rcases a with _ | ⟨y, a⟩
    · simp [glob]
    · have := ih (ds.flatMap (expand fs false x))
      simp only [List.cons_append] at this ⊢
      rw [glob, this]
      · rfl
      · simp

theorem glob_nil (p : List Str) : glob fs [] p = [] := by
  induction p with
  | nil => rfl
  | cons c p ih =>
    rcases p with _ | ⟨d, p⟩
    · rfl
    · rw [glob]
      · exact ih
      · simp

/-- A path without wildcards is looked up. -/
theorem glob_plain {d p : List Str} (hp : ∀ c ∈ p, hasMagic c = false) (h0 : p ≠ []) :
    glob fs [d] p = if lexists fs (d ++ p) then [d ++ p] else [] := by
  induction p generalizing d with
  | nil => exact absurd rfl h0
  | cons c p ih =>
    have hc := hp c (by simp)
    have e : ∀ b, expand fs b c d = if lexists fs (d ++ [c]) then [d ++ [c]] else [] := by
      intro b
      unfold expand
      rw [if_neg (by simp [hc])]
    rcases p with _ | ⟨x, p⟩
    · simp [glob, e]
    · rw [glob.eq_3 fs [d] c (x :: p) (by simp)]
      simp only [List.flatMap_cons, List.flatMap_nil, List.append_nil, e]
      have a : d ++ c :: x :: p = (d ++ [c]) ++ x :: p := by simp
      by_cases hl : lexists fs (d ++ [c]) = true
      · rw [if_pos hl, ih (fun y hy => hp y (by simp [hy])) (by simp), ← a]
      · rw [if_neg hl, glob_nil, if_neg]
        rw [a]
        exact fun h => hl (lexists_append h)

/-- Down a directory without wildcards in its name. -/
theorem glob_dir {d : List Str} (hd : ∀ c ∈ d, hasMagic c = false) (hx : lexists fs d = true)
    (c : Str) (cs : List Str) : glob fs [[]] (d ++ c :: cs) = glob fs [d] (c :: cs) := by
  rw [glob_append]
  congr 1
  have : ∀ (d b : List Str), (∀ c ∈ d, hasMagic c = false) → lexists fs (b ++ d) = true →
      d.foldl (fun ds c => ds.flatMap (expand fs false c)) [b] = [b ++ d] := by
    intro d
    induction d with
    | nil => intro b _ _; simp
    | cons c d ih =>
      intro b h1 h2
      have a : b ++ c :: d = (b ++ [c]) ++ d := by simp
      rw [a] at h2
      simp only [List.foldl_cons, List.flatMap_cons, List.flatMap_nil, List.append_nil]
      have e : expand fs false c b = [b ++ [c]] := by
        unfold expand
        rw [if_neg (by simp [h1 c (by simp)]), if_pos (lexists_append h2)]
      rw [e, ih _ (fun y hy => h1 y (by simp [hy])) h2, a]
  simpa using this d [] hd (by simpa using hx)

/-- What the last name of a pattern gives. -/
theorem glob_last {ds : List (List Str)} {a : List Str} {c : Str} {p : List Str}
    (h : p ∈ glob fs ds (a ++ [c])) : ∃ d m, p = d ++ [m] ∧
      (m = c ∨ hasMagic c = true ∧ fnmatch c m = true) := by
  rw [glob_append] at h
  simp only [glob, List.mem_flatMap] at h
  obtain ⟨d, -, h⟩ := h
  unfold expand at h
  split_ifs at h with h1 h2
  · split at h
    · simp at h
    · simp only [List.mem_map, List.mem_filter, Bool.and_eq_true] at h
      obtain ⟨n, ⟨-, ⟨-, h⟩, -⟩, rfl⟩ := h
      exact ⟨d, n, rfl, .inr ⟨h1, h⟩⟩
  · simp only [List.mem_singleton] at h
    exact ⟨d, c, h, .inl rfl⟩
  · simp at h

end

/-! ## Names in a code -/

theorem splitOn_ending {e : Str} (he : 47 ∉ e) (s : Str) :
    ∃ l n, (s ++ e).splitOn 47 = l ++ [n ++ e] := by
  induction s with
  | nil =>
    refine ⟨[], [], ?_⟩
    simp only [List.nil_append]
    exact List.splitOnP_eq_singleton fun x hx => by
      rw [beq_eq_false_iff_ne]; rintro rfl; exact he hx
  | cons x s ih =>
    obtain ⟨l, n, h⟩ := ih
    unfold List.splitOn at h ⊢
    rw [List.cons_append, List.splitOnP_cons_eq_if_modifyHead, h]
    split_ifs
    · exact ⟨[] :: l, n, rfl⟩
    · rcases l with _ | ⟨y, l⟩
      · exact ⟨[], x :: n, rfl⟩
      · exact ⟨(x :: y) :: l, n, rfl⟩

theorem names_ending {e : Str} (he : 47 ∉ e) (h0 : e ≠ []) (s : Str) :
    ∃ l n, names (s ++ e) = l ++ [n ++ e] := by
  obtain ⟨l, n, h⟩ := splitOn_ending he s
  refine ⟨l.filter fun c => !c.isEmpty, n, ?_⟩
  unfold names
  rw [h, List.filter_append]
  simp [h0]

theorem names_single {s : Str} (h : 47 ∉ s) (h0 : s ≠ []) : names s = [s] := by
  have : s.splitOn 47 = [s] := List.splitOnP_eq_singleton fun x hx => by
    rw [beq_eq_false_iff_ne]; rintro rfl; exact h hx
  unfold names
  rw [this]
  simp [h0]

theorem names_joined {l : List Str} (h : ∀ c ∈ l, 47 ∉ c ∧ c ≠ []) (h0 : l ≠ []) :
    names ([47].intercalate l) = l := by
  unfold names
  rw [List.splitOn_intercalate 47 (fun c hc => (h c hc).1) h0, List.filter_eq_self]
  intro c hc
  simp [(h c hc).2]

/-! ## Reading from an installation directory -/

section
open Verif.Spec.Files
variable {β : Type} {fs : Disk β} {dir : List Str} {ext : Str}

/-- The endings in use. -/
structure Ending (ext : Str) : Prop where
  plain : ∀ c ∈ ext, c ≠ 42 ∧ c ≠ 63 ∧ c ≠ 91
  close : 93 ∉ ext
  slash : 47 ∉ ext
  long : 2 < ext.length

theorem ending_yml : Ending yml := ⟨by decide, by decide, by decide, by decide⟩
theorem ending_txt : Ending txt := ⟨by decide, by decide, by decide, by decide⟩

theorem Ending.ne (h : Ending ext) : ext ≠ [] := by
  rintro rfl
  exact absurd h.long (by simp)

theorem Ending.name (h : Ending ext) (s : Str) : s ++ ext ≠ [46] ∧ s ++ ext ≠ [46, 46] := by
  have := h.long
  constructor <;>
  · intro e
    have := congrArg List.length e
    simp at this
    omega

theorem hasMagic_plain {c : Str} (h : Plain c) : hasMagic c = false := by
  unfold hasMagic
  rw [List.any_eq_false]
  intro x hx
  have := h x hx
  simp [this.1, this.2.1, this.2.2]

theorem installed_dir (h : Installed fs dir ext) : isDir fs dir = true := isDir_iff.2 (.inr h.full)

theorem installed_down (h : Installed fs dir ext) : Down dir := fun c hc => (h.plain c hc).2

theorem installed_walk (h : Installed fs dir ext) : walk fs [] dir = some dir := by
  have := walk_down (cur := []) (installed_down h) (.inl (by simpa using installed_dir h))
  simpa using this

theorem walk_file (h : Installed fs dir ext) (he : Ending ext) (s : Str) :
    walk fs [] (dir ++ [s ++ ext]) =
      if isFile fs (dir ++ [s ++ ext]) then some (dir ++ [s ++ ext]) else none := by
  rw [walk_append, installed_walk h]
  simp only [Option.bind_some, walk, if_pos (installed_dir h), if_neg (he.name s).1,
    if_neg (he.name s).2, Bool.or_eq_true]
  by_cases hf : isFile fs (dir ++ [s ++ ext]) = true
  · rw [if_pos (.inr hf), if_pos hf]
  · rw [if_neg hf, if_neg]
    rintro (hd | h')
    · rcases isDir_iff.1 hd with h0 | ⟨f, hf', h1, h2⟩
      · simp at h0
      · have := (h.entries f hf' _ h1 (List.suffix_append _ _)).1
        rw [this] at h2
        simp at h2
    · exact hf h'

theorem openFile_eq (h : Installed fs dir ext) (he : Ending ext) (s : Str) :
    openFile fs (dir ++ [s ++ ext]) = match fs.find? fun f => f.1 == dir ++ [s ++ ext] with
      | some f => .ok f.2
      | none => .error .ioError := by
  unfold openFile
  rw [walk_file h he]
  by_cases hf : isFile fs (dir ++ [s ++ ext]) = true
  · rw [if_pos hf]
    rfl
  · rw [if_neg hf]
    have : (fs.find? fun f => f.1 == dir ++ [s ++ ext]) = none := by
      rw [List.find?_eq_none]
      intro f hf' e
      exact hf (isFile_iff.2 ⟨f, hf', by simpa using e⟩)
    rw [this]

/-- One file of a table. -/
theorem entry_eq (f : List Str × β) :
    entry dir ext f = none ∧ (∀ s, f.1 ≠ dir ++ [s ++ ext]) ∨
    ∃ s, f.1 = dir ++ [s ++ ext] ∧
    entry dir ext f = some (s, f.2) := by
  rcases f with ⟨p, x⟩
  unfold entry
  rcases List.eq_nil_or_concat' p with rfl | ⟨l, n, rfl⟩
  · left
    simp
  · simp only [List.getLast?_append, List.getLast?_singleton, Option.some_or, List.dropLast_concat]
    by_cases hc : l = dir ∧ ext <:+ n
    · right
      obtain ⟨rfl, s, rfl⟩ := hc
      refine ⟨s, rfl, ?_⟩
      rw [if_pos ⟨rfl, List.suffix_append _ _⟩]
      simp
    · left
      refine ⟨if_neg hc, fun s e => hc ?_⟩
      have := List.append_inj' e rfl
      refine ⟨this.1, ?_⟩
      have h2 : n = s ++ ext := by simpa using this.2
      rw [h2]
      exact List.suffix_append _ _

theorem table_nil : table dir ext ([] : Disk β) = [] := rfl

theorem table_skip {f : List Str × β} (h : ∀ s, f.1 ≠ dir ++ [s ++ ext]) :
    table dir ext (f :: fs) = table dir ext fs := by
  rcases entry_eq (dir := dir) (ext := ext) f with ⟨e, -⟩ | ⟨s, e, -⟩
  · unfold table
    rw [List.filterMap_cons_none (f := entry dir ext) e]
  · exact absurd e (h s)

theorem table_hit {f : List Str × β} {s : Str} (h : f.1 = dir ++ [s ++ ext]) :
    table dir ext (f :: fs) = (s, f.2) :: table dir ext fs := by
  rcases entry_eq (dir := dir) (ext := ext) f with ⟨-, e⟩ | ⟨t, e, e'⟩
  · exact absurd h (e s)
  · unfold table
    rw [List.filterMap_cons_some (f := entry dir ext) e']
    rw [h] at e
    obtain rfl : s = t := by simpa using e
    rfl

/-- The first file of a table with a property of the name. -/
theorem table_first (M : Str → Bool) (fs : Disk β) :
    ((table dir ext fs).filter (fun f => M f.1) = [] ∧
      ∀ f ∈ fs, ∀ s, f.1 = dir ++ [s ++ ext] → M s = false) ∨
    ∃ a f b s t, fs = a ++ f :: b ∧ f.1 = dir ++ [s ++ ext] ∧ M s = true ∧
      (∀ g ∈ a, ∀ s, g.1 = dir ++ [s ++ ext] → M s = false) ∧
      (table dir ext fs).filter (fun f => M f.1) = (s, f.2) :: t := by
  induction fs with
  | nil => left; exact ⟨rfl, by simp⟩
  | cons f fs ih =>
    by_cases hx : ∃ s, f.1 = dir ++ [s ++ ext] ∧ M s = true
    · right
      obtain ⟨s, h1, h2⟩ := hx
      refine ⟨[], f, fs, s, (table dir ext fs).filter (fun f => M f.1), rfl, h1, h2, by simp, ?_⟩
      rw [table_hit h1, List.filter_cons_of_pos (p := fun f : Str × β => M f.1) h2]
    · have hn : ∀ s, f.1 = dir ++ [s ++ ext] → M s = false := by
        intro s hs
        rw [← Bool.not_eq_true]
        exact fun h => hx ⟨s, hs, h⟩
      have hf : (table dir ext (f :: fs)).filter (fun f => M f.1) =
          (table dir ext fs).filter (fun f => M f.1) := by
        by_cases he : ∃ s, f.1 = dir ++ [s ++ ext]
        · obtain ⟨s, hs⟩ := he
          rw [table_hit hs, List.filter_cons_of_neg (p := fun f : Str × β => M f.1) (by simp [hn s hs])]
        · rw [table_skip fun s hs => he ⟨s, hs⟩]
      rw [hf]
      rcases ih with ⟨h1, h2⟩ | ⟨a, g, b, s, t, rfl, h1, h2, h3, h4⟩
      · left
        refine ⟨h1, fun g hg => ?_⟩
        rcases List.mem_cons.1 hg with rfl | hg
        · exact hn
        · exact h2 g hg
      · right
        refine ⟨f :: a, g, b, s, t, rfl, h1, h2, fun g' hg => ?_, h4⟩
        rcases List.mem_cons.1 hg with rfl | hg
        · exact hn
        · exact h3 g' hg

theorem mem_listdir {n : Str} {d : List Str} : n ∈ listdir fs d ↔ ∃ f ∈ fs, d ++ [n] <+: f.1 := by
  unfold listdir
  rw [List.mem_filterMap]
  constructor
  · rintro ⟨f, hf, h⟩
    split_ifs at h with hp
    refine ⟨f, hf, ?_⟩
    obtain ⟨r, hr⟩ := List.isPrefixOf_iff_prefix.1 hp
    rw [← hr] at h ⊢
    rw [List.getElem?_append_right le_rfl, Nat.sub_self] at h
    rcases r with _ | ⟨x, r⟩
    · simp at h
    · obtain rfl : x = n := by simpa using h
      exact ⟨r, by simp⟩
  · rintro ⟨f, hf, r, hr⟩
    refine ⟨f, hf, ?_⟩
    have e : f.1 = d ++ n :: r := by rw [← hr]; simp
    rw [if_pos (List.isPrefixOf_iff_prefix.2 (by rw [e]; exact List.prefix_append _ _)), e]
    simp

/-- The lookup by `glob` with the ending, and the lookup in the table. -/
theorem glob_table (h : Installed fs dir ext) (he : Ending ext) {s : Str} (hs : 47 ∉ s) :
    (glob fs [[]] (dir ++ names (s ++ ext)) = [] ∧ Registry.glob (table dir ext fs) s = []) ∨
    ∃ p l t x r, glob fs [[]] (dir ++ names (s ++ ext)) = p :: l ∧ p = dir ++ [t ++ ext] ∧
      openFile fs p = .ok x ∧ Registry.glob (table dir ext fs) s = (t, x) :: r := by
  have hn : names (s ++ ext) = [s ++ ext] :=
    names_single (by simp [hs, he.slash]) (by simp [he.ne])
  have hd : ∀ c ∈ dir, hasMagic c = false := fun c hc => hasMagic_plain (h.plain c hc).1
  have hx : lexists fs dir = true := by unfold lexists; rw [installed_walk h]; rfl
  have hm : hasMagic (s ++ ext) = hasMagic s := hasMagic_append s ext he.plain
  rw [hn, glob_dir hd hx]
  have found : ∀ (a b : Disk β) (f : List Str × β) (t : Str) (M : Str → Bool), fs = a ++ f :: b →
      f.1 = dir ++ [t ++ ext] → M t = true →
      (∀ g ∈ a, ∀ s, g.1 = dir ++ [s ++ ext] → M s = false) →
      openFile fs (dir ++ [t ++ ext]) = .ok f.2 := by
    intro a b f t M e hf ht ha
    rw [openFile_eq h he]
    have : (fs.find? fun f => f.1 == dir ++ [t ++ ext]) = some f := by
      rw [e, List.find?_append]
      have : (a.find? fun f => f.1 == dir ++ [t ++ ext]) = none := by
        rw [List.find?_eq_none]
        intro g hg e
        have := ha g hg t (by simpa using e)
        rw [ht] at this
        cases this
      rw [this, Option.none_or, List.find?_cons_of_pos (by simp [hf])]
    rw [this]
  by_cases hmag : hasMagic s = true
  · have hreg : Registry.glob (table dir ext fs) s = (table dir ext fs).filter fun f => fnmatch s f.1 := by
      unfold Registry.glob
      simp only [hmag, if_true]
    rw [hreg]
    have hg : glob fs [dir] [s ++ ext] = ((listdir fs dir).filter fun n =>
        (hidden (s ++ ext) || !hidden n) && fnmatch (s ++ ext) n &&
          (true || isDir fs (dir ++ [n]))).map fun n => dir ++ [n] := by
      simp only [glob, List.flatMap_cons, List.flatMap_nil, List.append_nil]
      unfold expand
      rw [if_pos (by rw [hm]; exact hmag), installed_walk h]
    rw [hg]
    -- what the filter keeps
    have keep : ∀ f ∈ fs, ∀ n, (if dir.isPrefixOf f.1 then f.1[dir.length]? else none) = some n →
        (((hidden (s ++ ext) || !hidden n) && fnmatch (s ++ ext) n &&
          (true || isDir fs (dir ++ [n]))) = true ↔
          ∃ t, f.1 = dir ++ [t ++ ext] ∧ n = t ++ ext ∧ fnmatch s t = true) := by
      intro f hf n hfn
      have hpre : dir ++ [n] <+: f.1 := by
        split_ifs at hfn with hp
        obtain ⟨r, hr⟩ := List.isPrefixOf_iff_prefix.1 hp
        rw [← hr] at hfn ⊢
        rw [List.getElem?_append_right le_rfl, Nat.sub_self] at hfn
        rcases r with _ | ⟨x, r⟩
        · simp at hfn
        · obtain rfl : x = n := by simpa using hfn
          exact ⟨r, by simp⟩
      simp only [Bool.true_or, Bool.and_true, Bool.and_eq_true,
        fnmatch_append he.ne he.plain he.close]
      constructor
      · rintro ⟨-, t, rfl, ht⟩
        exact ⟨t, (h.entries f hf _ hpre (List.suffix_append _ _)).1, rfl, ht⟩
      · rintro ⟨t, hf', rfl, ht⟩
        refine ⟨?_, t, rfl, ht⟩
        have := (h.entries f hf _ hpre (List.suffix_append _ _)).2
        have h0 : hidden (t ++ ext) = false := by
          unfold hidden
          rw [beq_eq_false_iff_ne]
          exact this
        rw [h0, Bool.not_false, Bool.or_true]
    rcases table_first (dir := dir) (ext := ext) (fun t => fnmatch s t) fs with
      ⟨h1, h2⟩ | ⟨a, f, b, t, r, e, hf, ht, ha, h4⟩
    · left
      refine ⟨?_, h1⟩
      rw [List.map_eq_nil_iff, List.filter_eq_nil_iff]
      intro n hn hk
      unfold listdir at hn
      rw [List.mem_filterMap] at hn
      obtain ⟨f, hf, hfn⟩ := hn
      obtain ⟨t, h5, -, h6⟩ := (keep f hf n hfn).1 hk
      rw [h2 f hf t h5] at h6
      cases h6
    · right
      have hop := found a b f t (fun t => fnmatch s t) e hf ht ha
      have hgf : (if dir.isPrefixOf f.1 then f.1[dir.length]? else none) = some (t ++ ext) := by
        rw [if_pos (List.isPrefixOf_iff_prefix.2 (by rw [hf]; exact List.prefix_append _ _)), hf]
        simp
      have hk := (keep f (by rw [e]; simp) _ hgf).2 ⟨t, hf, rfl, ht⟩
      have hempty : (a.filterMap fun f => if dir.isPrefixOf f.1 then f.1[dir.length]? else none).filter
          (fun n => (hidden (s ++ ext) || !hidden n) && fnmatch (s ++ ext) n &&
            (true || isDir fs (dir ++ [n]))) = [] := by
        rw [List.filter_eq_nil_iff]
        intro n hn hk
        rw [List.mem_filterMap] at hn
        obtain ⟨g, hg, hgn⟩ := hn
        obtain ⟨u, h5, -, h6⟩ := (keep g (by rw [e]; simp [hg]) n hgn).1 hk
        rw [ha g hg u h5] at h6
        cases h6
      have hl : listdir fs dir = (a.filterMap fun f => if dir.isPrefixOf f.1 then f.1[dir.length]? else none) ++
          (t ++ ext) :: b.filterMap fun f => if dir.isPrefixOf f.1 then f.1[dir.length]? else none := by
        unfold listdir
        rw [e, List.filterMap_append, List.filterMap_cons_some (f := fun f : List Str × β =>
          if dir.isPrefixOf f.1 then f.1[dir.length]? else none) hgf]
      have hm : ∃ l, ((listdir fs dir).filter fun n =>
          (hidden (s ++ ext) || !hidden n) && fnmatch (s ++ ext) n &&
            (true || isDir fs (dir ++ [n]))) = (t ++ ext) :: l := by
        rw [hl, List.filter_append, hempty, List.nil_append, List.filter_cons_of_pos (p := fun n =>
          (hidden (s ++ ext) || !hidden n) && fnmatch (s ++ ext) n &&
            (true || isDir fs (dir ++ [n]))) hk]
        exact ⟨_, rfl⟩
      obtain ⟨l, hm⟩ := hm
      refine ⟨dir ++ [t ++ ext], l.map fun n => dir ++ [n], t, f.2, r, ?_, rfl, hop, h4⟩
      rw [hm, List.map_cons]
  · have hmag' : hasMagic s = false := by simpa using hmag
    have hreg : Registry.glob (table dir ext fs) s = (table dir ext fs).filter fun f => f.1 == s := by
      unfold Registry.glob
      simp only [hmag', Bool.false_eq_true, if_false]
    rw [hreg, glob_plain (by simp [hm, hmag']) (by simp)]
    unfold lexists
    rw [walk_file h he]
    rcases table_first (dir := dir) (ext := ext) (fun t => t == s) fs with
      ⟨h1, h2⟩ | ⟨a, f, b, t, r, e, hf, ht, ha, h4⟩
    · left
      refine ⟨?_, h1⟩
      rw [if_neg (c := isFile fs _ = true)]
      · simp
      · intro hf
        obtain ⟨f, hf, hf'⟩ := isFile_iff.1 hf
        have := h2 f hf s hf'
        simp at this
    · right
      obtain rfl : t = s := by simpa using ht
      refine ⟨_, [], t, f.2, r, ?_, rfl, found a b f t (fun u => u == t) e hf ht ha, h4⟩
      rw [if_pos (c := isFile fs _ = true) (isFile_iff.2 ⟨f, by rw [e]; simp, hf⟩)]
      simp

end

end Verif.Files
