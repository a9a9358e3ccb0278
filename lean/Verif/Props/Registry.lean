import Verif.Lemmas.Registry
import Verif.Lemmas.Cache
import Verif.Lemmas.Construct

/-!
# C70-C73, C82, C83: looking up aircraft and engines
-/

namespace Verif.Props
open Verif Verif.Tables Verif.Registry Verif.Spec
open Verif.Data (shipped)

/-- `"Trent 772"`. -/
def trent772 : Str := [84, 114, 101, 110, 116, 32, 55, 55, 50]
/-- `"  cfm56-5b4 "`. -/
def cfm56 : Str := [32, 32, 99, 102, 109, 53, 54, 45, 53, 98, 52, 32]
/-- `"cfm56-5b4"`. -/
def cfm56core : Str := [99, 102, 109, 53, 54, 45, 53, 98, 52]
/-- `"CFM56-5B"`. -/
def cfm56pre : Str := [67, 70, 77, 53, 54, 45, 53, 66]
/-- `"a320"`. -/
def codeA320 : Str := [97, 51, 50, 48]
/-- `"a3*"`. -/
def globA3 : Str := [97, 51, 42]

/-- **C70 (letter case).** Requests that differ in letter case only get the same records. -/
theorem C70_case_insensitive (db : DB) (s t : Str) (h : SameText s t) (syn : Bool) :
    aircraft db s syn = aircraft db t syn ∧
    (engine db s).map (·.1) = (engine db t).map (·.1) := by
  constructor
  · unfold aircraft
    rw [(lower_eq_iff s t).2 h]
  · obtain ⟨core, hc⟩ := stripped_exists s
    obtain ⟨core', hc'⟩ := stripped_exists t
    have hu : upper (strip s) = upper (strip t) := by
      have hsp : ∀ c d, SameLetter c d → isSpace c = isSpace d := by
        intro c d hcd
        rw [Bool.eq_iff_iff, isSpace_iff, isSpace_iff]
        unfold SameLetter at hcd
        unfold Blank
        simp only [List.mem_cons, List.not_mem_nil, or_false]
        omega
      have hdrop : ∀ {a b : Str}, List.Forall₂ SameLetter a b →
          List.Forall₂ SameLetter (a.dropWhile isSpace) (b.dropWhile isSpace) := by
        intro a b hab
        induction hab with
        | nil => exact .nil
        | @cons c d a b hcd hab ih =>
          by_cases hx : isSpace c = true
          · rw [List.dropWhile_cons_of_pos hx, List.dropWhile_cons_of_pos ((hsp c d hcd) ▸ hx)]
            exact ih
          · rw [List.dropWhile_cons_of_neg hx, List.dropWhile_cons_of_neg ((hsp c d hcd) ▸ hx)]
            exact .cons hcd hab
      rw [upper_eq_iff]
      unfold SameText strip
      rw [List.forall₂_reverse_iff]
      exact hdrop (List.forall₂_reverse_iff.2 (hdrop h))
    unfold engine
    simp only [hu]
    cases db.engines.filter fun r => (upper (strip t)).isPrefixOf (upper r.name) <;> rfl

example : (engine shipped [67, 70, 109]).map (·.1) = (engine shipped [99, 102, 77]).map (·.1) :=
  (C70_case_insensitive shipped [67, 70, 109] [99, 102, 77]
    (by unfold SameText SameLetter; simp) false).2

/-- **C70 (engine).** `engine(q)` succeeds exactly when some table name starts with `q` (white
space around `q` and letter case ignored); it then returns the first such row, labelled with
the request. A blank request therefore returns the first row of the table. -/
theorem C70_engine_first_match (db : DB) (q core : Str) (hc : Stripped q core) :
    (∀ r, FirstWith (fun r : EngineRow => PrefixCI core r.name) db.engines r →
      engine db q = .ok (r, q)) ∧
    (∀ r nm, engine db q = .ok (r, nm) →
      nm = q ∧ FirstWith (fun r : EngineRow => PrefixCI core r.name) db.engines r) ∧
    ((∀ r ∈ db.engines, ¬ PrefixCI core r.name) ↔ engine db q = .error .valueError) ∧
    (core = [] → ∀ r0 rest, db.engines = r0 :: rest → engine db q = .ok (r0, q)) := by
  have main : ∀ r, FirstWith (fun r : EngineRow => PrefixCI core r.name) db.engines r →
      engine db q = .ok (r, q) := by
    intro r hr
    rcases engine_spec db hc with ⟨r', h1, h2⟩ | ⟨-, h2⟩
    · rw [h1, firstWith_unique h2 hr]
    · obtain ⟨a, b, h3, h4, -⟩ := hr
      exact absurd h4 (h2 r (by rw [h3]; simp))
  refine ⟨main, ?_, ?_, ?_⟩
  · intro r nm h
    rcases engine_spec db hc with ⟨r', h1, h2⟩ | ⟨h1, -⟩
    · rw [h1] at h
      simp only [Except.ok.injEq, Prod.mk.injEq] at h
      exact ⟨h.2.symm, h.1 ▸ h2⟩
    · rw [h1] at h; simp at h
  · constructor
    · intro h
      rcases engine_spec db hc with ⟨r', h1, a, b, h3, h4, -⟩ | ⟨h1, -⟩
      · exact absurd h4 (h r' (by rw [h3]; simp))
      · exact h1
    · intro h
      rcases engine_spec db hc with ⟨r', h1, -⟩ | ⟨-, h2⟩
      · rw [h1] at h; simp at h
      · exact h2
  · rintro rfl r0 rest hdb
    refine main r0 ⟨[], rest, hdb, ⟨[], r0.name, rfl, ?_⟩, by simp⟩
    exact List.Forall₂.nil

example : Stripped cfm56 cfm56core ∧ (∃ r, engine shipped cfm56 = .ok (r, cfm56)) := by
  refine ⟨⟨[32, 32], [32], rfl, ?_, ?_, ?_, ?_⟩, ?_⟩
  · simp [Blank]
  · simp [Blank]
  · simp [cfm56core, Blank]
  · simp [cfm56core, Blank]
  · have : (match engine shipped cfm56 with
      | .ok r => decide (r.2 = cfm56)
      | .error _ => false) = true := by
      decide +kernel
    rcases h : engine shipped cfm56 with e | ⟨r, n⟩
    · rw [h] at this; simp at this
    · rw [h] at this
      simp only [decide_eq_true_eq] at this
      exact ⟨r, by rw [this]⟩

/-- **C70 (aircraft).** A type code without the wildcard characters `*`, `?`, `[` that names a file returns that
file's record, with or without synonyms and whatever the directory order; a code that names
neither a file nor a synonym raises. -/
theorem C70_aircraft_exact (db : DB) (ac : Str) (syn : Bool)
    (hm : 42 ∉ ac ∧ 63 ∉ ac ∧ 91 ∉ ac) (hn : (db.aircraft.map (·.1)).Nodup) :
    (∀ code r, SameText ac code → lower code = code → (code, r) ∈ db.aircraft →
      aircraft db ac syn = .ok r) ∧
    ((∀ f ∈ db.aircraft, f.1 ≠ lower ac) → (∀ e ∈ db.aircraftSyn, e.1 ≠ lower ac) →
      aircraft db ac syn = .error .valueError) ∧
    (∀ files, files.Perm db.aircraft → (∀ e ∈ db.aircraftSyn, hasMagic e.2 = false) →
      aircraft { db with aircraft := files } ac syn = aircraft db ac syn) := by
  have hm' : hasMagic (lower ac) = false := by
    unfold hasMagic lower
    rw [List.any_map, List.any_eq_false]
    intro c hc
    have h1 : c ≠ 42 := fun h => hm.1 (h ▸ hc)
    have h2 : c ≠ 63 := fun h => hm.2.1 (h ▸ hc)
    have h3 : c ≠ 91 := fun h => hm.2.2 (h ▸ hc)
    simp only [Function.comp, loC, Bool.or_eq_true, beq_iff_eq]
    split_ifs <;> omega
  refine ⟨?_, ?_, ?_⟩
  · intro code r hs hl hr
    have : lower ac = code := by rw [(lower_eq_iff ac code).2 hs, hl]
    unfold aircraft
    simp only
    rw [this, glob_exact (this ▸ hm') hn hr]
  · intro h1 h2
    unfold aircraft
    simp only
    have : glob db.aircraft (lower ac) = [] := by
      rw [glob_nomagic _ hm', List.filter_eq_nil_iff]
      intro f hf
      simpa using h1 f hf
    rw [this]
    have : lookup (lower ac) db.aircraftSyn = none := by
      cases h : lookup (lower ac) db.aircraftSyn with
      | none => rfl
      | some v => exact absurd rfl (h2 _ (Cache.lookup_mem h))
    rw [this]
  · intro files hp hsyn
    have key : ∀ pat, hasMagic pat = false → glob files pat = glob db.aircraft pat := by
      intro pat hpat
      rw [glob_nomagic _ hpat, glob_nomagic _ hpat]
      have h1 : (files.filter fun f => f.1 == pat).Perm (db.aircraft.filter fun f => f.1 == pat) :=
        hp.filter _
      rcases filter_first (fun f : Str × AircraftRow => f.1 == pat) db.aircraft with
        ⟨h2, -⟩ | ⟨x, t, -, a, b, h3, h4, -⟩
      · rw [h2] at h1 ⊢
        exact h1.eq_nil
      · have hx : x = (pat, x.2) := by
          have : x.1 = pat := by simpa using h4
          rw [← this]
        have hmem : (pat, x.2) ∈ db.aircraft := by rw [h3, ← hx]; simp
        have := glob_exact hpat hn hmem
        rw [glob_nomagic _ hpat] at this
        rw [this] at h1 ⊢
        exact h1.eq_singleton
    unfold aircraft
    simp only
    rw [key _ hm']
    cases glob db.aircraft (lower ac) with
    | cons f l => rfl
    | nil =>
      cases h : lookup (lower ac) db.aircraftSyn with
      | none => rfl
      | some new =>
        simp only
        rw [key new (hsyn _ (Cache.lookup_mem h))]

/-- The shipped directory meets the hypotheses. -/
example : (shipped.aircraft.map (·.1)).Nodup ∧ (42 ∉ codeA320 ∧ 63 ∉ codeA320 ∧ 91 ∉ codeA320) ∧
    (∀ e ∈ shipped.aircraftSyn, hasMagic e.2 = false) ∧
    (∀ f ∈ shipped.aircraft, lower f.1 = f.1) := by
  refine ⟨?_, by decide +kernel, by decide +kernel, by decide +kernel⟩
  decide +kernel

/-- **C83.** A type code is used as a file name pattern: `aircraft("a3*")` is not rejected,
and which aircraft it returns depends on the order of the directory listing. -/
theorem C83_wildcards_accepted :
    (∀ db : DB, db.aircraft ≠ [] → ∀ syn, ∃ f ∈ db.aircraft, aircraft db [42] syn = .ok f.2) ∧
    (∃ r, aircraft shipped globA3 false = .ok r) ∧
    (∃ files, files.Perm shipped.aircraft ∧
      aircraft { shipped with aircraft := files } globA3 false ≠
        aircraft shipped globA3 false) := by
  refine ⟨?_, ?_, shipped.aircraft.reverse, List.reverse_perm _, ?_⟩
  · intro db hdb syn
    have hg : glob db.aircraft (lower [42]) = db.aircraft := by
      unfold glob
      rw [List.filter_eq_self]
      intro f _
      have h1 : hasMagic (lower [42]) = true := by decide
      have h2 : lower [42] = [42] := by decide
      rw [if_pos h1, h2]
      show matchPieces [.star] f.1 = true
      simp only [matchPieces, List.any_eq_true]
      exact ⟨[], by simp, rfl⟩
    cases h : db.aircraft with
    | nil => exact absurd h hdb
    | cons f l =>
      refine ⟨f, by simp, ?_⟩
      unfold aircraft
      simp only
      rw [hg, h]
  · have : Except.isOk' (aircraft shipped globA3 false) = true := by decide +kernel
    cases h : aircraft shipped globA3 false with
    | error e => rw [h] at this; simp [Except.isOk'] at this
    | ok r => exact ⟨r, rfl⟩
  · intro h
    have h1 : ((aircraft { shipped with aircraft := shipped.aircraft.reverse } globA3 false).map
        (·.mtow)).toOption = ((aircraft shipped globA3 false).map (·.mtow)).toOption := by rw [h]
    revert h1
    decide +kernel

/-- No character of a text is special in file name patterns. -/
def PlainText (s : Str) : Prop := ∀ c ∈ s, c ≠ 42 ∧ c ≠ 63 ∧ c ≠ 91

theorem lower_plain {s : Str} (h : PlainText s) : PlainText (lower s) := by
  intro c hc
  obtain ⟨d, hd, rfl⟩ := List.mem_map.1 hc
  have := h d hd
  unfold loC
  split_ifs <;> omega

theorem lower_notin {s : Str} {k : ℕ} (hk : k < 65) (h : k ∉ s) : k ∉ lower s := by
  intro hc
  obtain ⟨d, hd, e⟩ := List.mem_map.1 hc
  unfold loC at e
  split_ifs at e
  · omega
  · exact h (e ▸ hd)

/-- The first file of the directory with a certain property is returned; without one the request
is rejected. -/
def FirstOf (db : DB) (ac : Str) (p : Str → Prop) : Prop :=
  ∀ syn, ((∃ a f b, db.aircraft = a ++ f :: b ∧ p f.1 ∧ (∀ g ∈ a, ¬ p g.1) ∧
      aircraft db ac syn = .ok f.2) ∨
    (∀ f ∈ db.aircraft, ¬ p f.1) ∧
      ((∀ e ∈ db.aircraftSyn, 91 ∉ e.1) → aircraft db ac syn = .error .valueError))

theorem firstOf {db : DB} {ac : Str} {p : Str → Prop} (hm : 91 ∈ ac)
    (h : ∀ s, fnmatch (lower ac) s = true ↔ p s) : FirstOf db ac p := by
  have hm' : 91 ∈ lower ac := List.mem_map.2 ⟨91, hm, by decide⟩
  have magic : hasMagic (lower ac) = true := by
    unfold hasMagic
    rw [List.any_eq_true]
    exact ⟨91, hm', by decide⟩
  have hg : glob db.aircraft (lower ac) = db.aircraft.filter fun f => fnmatch (lower ac) f.1 := by
    unfold glob
    simp only [magic, if_true]
  intro syn
  rcases filter_first (fun f : Str × AircraftRow => fnmatch (lower ac) f.1) db.aircraft with
    ⟨h1, h2⟩ | ⟨x, t, h1, a, b, h3, h4, h5⟩
  · right
    refine ⟨fun f hf hp => ?_, fun hs => ?_⟩
    · have := h2 f hf
      rw [(h f.1).2 hp] at this
      cases this
    · unfold aircraft
      simp only
      rw [hg, h1]
      have : lookup (lower ac) db.aircraftSyn = none := by
        cases e : lookup (lower ac) db.aircraftSyn with
        | none => rfl
        | some new => exact absurd hm' (hs _ (Cache.lookup_mem e))
      rw [this]
  · left
    refine ⟨a, x, b, h3, (h _).1 h4, fun g hg hp => h5 g hg ((h _).2 hp), ?_⟩
    unfold aircraft
    simp only
    rw [hg, h1]

/-- **C83, sets of characters.** `[` and `]` in a type code enclose a set of characters, a
leading `!` the characters not to be used: the request names any one file that has such a character
in that place. -/
theorem C83_character_sets (db : DB) {pre body post : Str} (hp : PlainText pre)
    (hq : PlainText post) (h0 : body ≠ []) (hb : 33 ∉ body ∧ 45 ∉ body ∧ 93 ∉ body) :
    FirstOf db (pre ++ [91] ++ body ++ [93] ++ post)
      (fun s => ∃ d ∈ lower body, s = lower pre ++ [d] ++ lower post) ∧
    FirstOf db (pre ++ [91, 33] ++ body ++ [93] ++ post)
      (fun s => ∃ d, d ∉ lower body ∧ s = lower pre ++ [d] ++ lower post) := by
  have b0 : lower body ≠ [] := by simpa [lower] using h0
  have b1 := lower_notin (k := 33) (by decide) hb.1
  have b2 := lower_notin (k := 45) (by decide) hb.2.1
  have b3 : 93 ∉ lower body := by
    intro hc
    obtain ⟨d, hd, e⟩ := List.mem_map.1 hc
    unfold loC at e
    split_ifs at e
    · omega
    · exact hb.2.2 (e ▸ hd)
  have b4 : (lower body).head? ≠ some 33 := fun h => b1 (List.mem_of_mem_head? h)
  have low : ∀ a b : Str, lower (a ++ b) = lower a ++ lower b := fun a b => List.map_append
  constructor
  · refine firstOf (by simp) fun s => ?_
    have e : lower (pre ++ [91] ++ body ++ [93] ++ post) =
        lower pre ++ 91 :: ((if false then [33] else []) ++ lower body ++ 93 :: lower post) := by
      simp only [low]
      simp [lower, loC]
    rw [e, fnmatch_set (lower_plain hp) (lower_plain hq) b0 b4 b3]
    simp only [fits_set false _ _ b2, iff_true]
    constructor
    · rintro ⟨d, rfl, h⟩; exact ⟨d, h, by simp⟩
    · rintro ⟨d, h, rfl⟩; exact ⟨d, by simp, h⟩
  · refine firstOf (by simp) fun s => ?_
    have e : lower (pre ++ [91, 33] ++ body ++ [93] ++ post) =
        lower pre ++ 91 :: ((if true then [33] else []) ++ lower body ++ 93 :: lower post) := by
      simp only [low]
      simp [lower, loC]
    rw [e, fnmatch_set (lower_plain hp) (lower_plain hq) b0 b4 b3]
    simp only [fits_set true _ _ b2]
    constructor
    · rintro ⟨d, rfl, h⟩; exact ⟨d, by simpa using h, by simp⟩
    · rintro ⟨d, h, rfl⟩; exact ⟨d, by simp, by simpa using h⟩

/-- **C83, ranges of characters.** Likewise `[a-b]` for the characters from `a` to `b`. -/
theorem C83_character_ranges (db : DB) {pre post : Str} {a b : ℕ} (hp : PlainText pre)
    (hq : PlainText post) (ha : loC a = a ∧ a ≠ 33 ∧ a ≠ 93) (hb : loC b = b ∧ b ≠ 93) :
    FirstOf db (pre ++ [91, a, 45, b, 93] ++ post)
      (fun s => ∃ d, a ≤ d ∧ d ≤ b ∧ s = lower pre ++ [d] ++ lower post) ∧
    FirstOf db (pre ++ [91, 33, a, 45, b, 93] ++ post)
      (fun s => ∃ d, ¬ (a ≤ d ∧ d ≤ b) ∧ s = lower pre ++ [d] ++ lower post) := by
  have low : ∀ a b : Str, lower (a ++ b) = lower a ++ lower b := fun a b => List.map_append
  have b3 : 93 ∉ [a, 45, b] := by simp [ha.2.2.symm, hb.2.symm]
  have b4 : [a, 45, b].head? ≠ some 33 := by simp [ha.2.1]
  constructor
  · refine firstOf (by simp) fun s => ?_
    have e : lower (pre ++ [91, a, 45, b, 93] ++ post) =
        lower pre ++ 91 :: ((if false then [33] else []) ++ [a, 45, b] ++ 93 :: lower post) := by
      simp only [low]
      simp [lower, ha.1, hb.1]
      simp [loC]
    rw [e, fnmatch_set (lower_plain hp) (lower_plain hq) (by simp) b4 b3]
    simp only [fits_range false, iff_true]
    constructor
    · rintro ⟨d, rfl, h⟩; exact ⟨d, h.1, h.2, by simp⟩
    · rintro ⟨d, h1, h2, rfl⟩; exact ⟨d, by simp, h1, h2⟩
  · refine firstOf (by simp) fun s => ?_
    have e : lower (pre ++ [91, 33, a, 45, b, 93] ++ post) =
        lower pre ++ 91 :: ((if true then [33] else []) ++ [a, 45, b] ++ 93 :: lower post) := by
      simp only [low]
      simp [lower, ha.1, hb.1]
      simp [loC]
    rw [e, fnmatch_set (lower_plain hp) (lower_plain hq) (by simp) b4 b3]
    simp only [fits_range true]
    constructor
    · rintro ⟨d, rfl, h⟩; exact ⟨d, by simpa using h, by simp⟩
    · rintro ⟨d, h, rfl⟩; exact ⟨d, by simp, by simpa using h⟩

/-- Two of the shipped files fit `a32[01]`, and one of them is returned; none fits `a32[x-z]`. -/
example : ([97, 51, 50, 48] ∈ shipped.aircraft.map (·.1) ∧
      [97, 51, 50, 49] ∈ shipped.aircraft.map (·.1)) ∧
    ((aircraft shipped [65, 51, 50, 91, 48, 49, 93] false).map (·.mtow)).toOption ≠ none ∧
    aircraft shipped [65, 51, 50, 91, 120, 45, 122, 93] true = .error .valueError ∧
    ∀ e ∈ shipped.aircraftSyn, 91 ∉ e.1 := by
  decide +kernel

/-- **C71.** Whatever `search_engine` lists, `engine` finds; and `search_engine` lists exactly
the names starting with the upper-case request *as written*, so no name with a lower-case
letter within the length of the request is ever listed. -/
theorem C71_search_implies_engine (db : DB) (q : Str) :
    (∀ l, searchEngine db q = some l → ∃ r, engine db q = .ok (r, q)) ∧
    (∀ core l, Stripped q core → searchEngine db q = some l → ∀ nm ∈ l, PrefixCI core nm ∧
      ∀ c ∈ nm.take core.length, ¬ (97 ≤ c ∧ c ≤ 122)) ∧
    ((∀ r ∈ db.engines, ∀ c ∈ r.name, ¬ (97 ≤ c ∧ c ≤ 122)) →
      (searchEngine db q ≠ none ↔ ∃ r, engine db q = .ok (r, q))) := by
  have up_idem : ∀ s : Str, (∀ c ∈ s, ¬ (97 ≤ c ∧ c ≤ 122)) → upper s = s := by
    intro s hs
    unfold upper
    conv_rhs => rw [← List.map_id s]
    apply List.map_congr_left
    intro c hc
    simp [upC, hs c hc]
  have noLow : ∀ s : Str, ∀ c ∈ upper s, ¬ (97 ≤ c ∧ c ≤ 122) := by
    intro s c hc
    obtain ⟨d, -, rfl⟩ := List.mem_map.1 hc
    unfold upC
    split_ifs <;> omega
  have hpre : ∀ nm : Str, (upper (strip q)).isPrefixOf nm = true →
      (upper (strip q)).isPrefixOf (upper nm) = true := by
    intro nm h
    obtain ⟨t, rfl⟩ := List.isPrefixOf_iff_prefix.1 h
    rw [List.isPrefixOf_iff_prefix]
    refine ⟨upper t, ?_⟩
    unfold upper at *
    rw [List.map_append]
    congr 1
    exact (up_idem _ (noLow (strip q))).symm
  have hfound : ∀ r ∈ db.engines, (upper (strip q)).isPrefixOf (upper r.name) = true →
      ∃ r, engine db q = .ok (r, q) := by
    intro r hr hp
    unfold engine
    simp only
    cases h : db.engines.filter fun r => (upper (strip q)).isPrefixOf (upper r.name) with
    | nil =>
      rw [List.filter_eq_nil_iff] at h
      exact absurd hp (h r hr)
    | cons x t => exact ⟨x, rfl⟩
  refine ⟨?_, ?_, ?_⟩
  · intro l hl
    unfold searchEngine at hl
    simp only at hl
    cases h : db.engines.filter fun r => (upper (strip q)).isPrefixOf r.name with
    | nil => rw [h] at hl; simp at hl
    | cons x t =>
      have hx : x ∈ db.engines.filter fun r => (upper (strip q)).isPrefixOf r.name := by
        rw [h]; simp
      rw [List.mem_filter] at hx
      exact hfound x hx.1 (hpre _ hx.2)
  · intro core l hc hl nm hnm
    unfold searchEngine at hl
    simp only at hl
    have hstrip := strip_eq hc
    have hx : ∃ r ∈ db.engines, (upper (strip q)).isPrefixOf r.name = true ∧ r.name = nm := by
      cases h : db.engines.filter fun r => (upper (strip q)).isPrefixOf r.name with
      | nil => rw [h] at hl; simp at hl
      | cons x t =>
        rw [h] at hl
        simp only [Option.some.injEq] at hl
        rw [← hl, ← h] at hnm
        obtain ⟨r, hr, rfl⟩ := List.mem_map.1 hnm
        rw [List.mem_filter] at hr
        exact ⟨r, hr.1, hr.2, rfl⟩
    obtain ⟨r, -, hp, rfl⟩ := hx
    refine ⟨?_, ?_⟩
    · rw [← prefix_iff, ← hstrip]; exact hpre _ hp
    · obtain ⟨t, ht⟩ := List.isPrefixOf_iff_prefix.1 hp
      intro c hcm
      rw [← ht, hstrip, List.take_left' (by simp [upper])] at hcm
      exact noLow _ c hcm
  · intro hlow
    constructor
    · intro h
      cases h' : searchEngine db q with
      | none => exact absurd h' h
      | some l =>
        unfold searchEngine at h'
        simp only at h'
        cases h : db.engines.filter fun r => (upper (strip q)).isPrefixOf r.name with
        | nil => rw [h] at h'; simp at h'
        | cons x t =>
          have hx : x ∈ db.engines.filter fun r => (upper (strip q)).isPrefixOf r.name := by
            rw [h]; simp
          rw [List.mem_filter] at hx
          exact hfound x hx.1 (hpre _ hx.2)
    · rintro ⟨r, hr⟩
      unfold engine at hr
      simp only at hr
      unfold searchEngine
      simp only
      have : (db.engines.filter fun r => (upper (strip q)).isPrefixOf (upper r.name)) =
          db.engines.filter fun r => (upper (strip q)).isPrefixOf r.name := by
        apply List.filter_congr
        intro r hr
        rw [up_idem r.name (hlow r hr)]
      rw [this] at hr
      cases h : db.engines.filter fun r => (upper (strip q)).isPrefixOf r.name with
      | nil => rw [h] at hr; simp at hr
      | cons x t => simp

/-- **C71 (listing).** `search_engine` lists, in table order, exactly the names that begin with
the stripped request in capitals (`cap`); it returns `None` exactly when there is none. -/
theorem C71_search_listing (db : DB) (q core cap : Str) (hc : Stripped q core)
    (hcap : SameText cap core) (hu : ∀ c ∈ cap, ¬ (97 ≤ c ∧ c ≤ 122)) :
    (∀ l, searchEngine db q = some l → l ≠ [] ∧ l.Sublist (db.engines.map (·.name)) ∧
      ∀ r ∈ db.engines, r.name ∈ l ↔ ∃ t, r.name = cap ++ t) ∧
    (searchEngine db q = none ↔ ∀ r ∈ db.engines, ¬ ∃ t, r.name = cap ++ t) := by
  have e : upper (strip q) = cap := by
    rw [strip_eq hc, ← (upper_eq_iff _ _).2 hcap]
    unfold upper
    conv_rhs => rw [← List.map_id cap]
    apply List.map_congr_left
    intro c h
    simp [upC, hu c h]
  have hp : ∀ nm : Str, cap.isPrefixOf nm = true ↔ ∃ t, nm = cap ++ t := by
    intro nm
    rw [List.isPrefixOf_iff_prefix]
    exact ⟨fun ⟨t, h⟩ => ⟨t, h.symm⟩, fun ⟨t, h⟩ => ⟨t, h.symm⟩⟩
  unfold searchEngine
  simp only [e]
  rcases h : db.engines.filter (fun r => cap.isPrefixOf r.name) with _ | ⟨a, b⟩
  · refine ⟨fun l hl => (by simp [h] at hl), fun _ r hr => ?_, fun _ => by simp [h]⟩
    rw [← hp]
    exact (List.filter_eq_nil_iff.1 h) r hr
  · constructor
    · intro l hl
      rw [h] at hl
      have hl : (a :: b).map (·.name) = l := Option.some.inj hl
      subst hl
      refine ⟨by simp, ?_, ?_⟩
      · rw [← h]
        exact List.filter_sublist.map _
      · intro r hr
        rw [← hp, ← h]
        constructor
        · intro hm
          obtain ⟨r', h1, h2⟩ := List.mem_map.1 hm
          rw [← h2]
          exact (List.mem_filter.1 h1).2
        · intro hm
          exact List.mem_map.2 ⟨r, List.mem_filter.2 ⟨hr, hm⟩, rfl⟩
    · rw [h]
      simp only [reduceCtorEq, false_iff, not_forall, not_not]
      have ha : a ∈ db.engines.filter (fun r => cap.isPrefixOf r.name) := by rw [h]; simp
      exact ⟨a, (List.mem_filter.1 ha).1, (hp _).1 (List.mem_filter.1 ha).2⟩

/-- The hypotheses hold for the request `"  cfm56-5b4 "`, and the listing is not empty. -/
example : Stripped cfm56 cfm56core ∧ SameText (upper cfm56core) cfm56core ∧
    (∀ c ∈ upper cfm56core, ¬ (97 ≤ c ∧ c ≤ 122)) ∧ searchEngine shipped cfm56 ≠ none := by
  refine ⟨⟨[32, 32], [32], by decide, by simp [Blank], by simp [Blank], ?_, ?_⟩,
    (upper_eq_iff _ _).1 (by decide), by decide, by decide +kernel⟩ <;>
  · intro c hc
    simp [cfm56core] at hc
    subst hc
    simp [Blank]

/-- **C71 (failing direction).** For every engine of the shipped table whose name has a
lower-case letter (85 of them, such as "Trent 772"), `engine(name)` succeeds and
`search_engine(name)` reports nothing. -/
theorem C71_search_misses_mixed_case :
    (∀ r ∈ shipped.engines, upper r.name ≠ r.name →
      Except.isOk' (engine shipped r.name) = true ∧
      (searchEngine shipped r.name = none ∨ ∃ l, searchEngine shipped r.name = some l ∧
        r.name ∉ l)) ∧
    searchEngine shipped trent772 = none ∧ Except.isOk' (engine shipped trent772) = true := by
  refine ⟨?_, by decide +kernel, by decide +kernel⟩
  intro r hr hne
  refine ⟨?_, ?_⟩
  · have : shipped.engines.all (fun r => Except.isOk' (engine shipped r.name)) = true := by
      decide +kernel
    exact List.all_eq_true.1 this r hr
  · have : shipped.engines.all (fun r => upper r.name == r.name ||
        (match searchEngine shipped r.name with
          | none => true
          | some l => !(l.contains r.name))) = true := by decide +kernel
    have := List.all_eq_true.1 this r hr
    cases h : searchEngine shipped r.name with
    | none => exact Or.inl rfl
    | some l =>
      right
      refine ⟨l, rfl, ?_⟩
      rw [h] at this
      simpa [hne] using this

example : (shipped.engines.filter fun r => upper r.name != r.name).length = 85 := by
  decide +kernel

/-- **C72 (engine).** Two `engine(q)` calls return the same mutable record: a change made by
the first caller is what the second one sees. Between the two calls anything may happen
except a further write to that record: other writes, and calls with fewer than 128 distinct
other requests. -/
theorem C72_engine_record_shared {ρ : Type} (f : Str → Except PyError ρ) (s : Cache.State ρ)
    (hs : ∀ e ∈ s.cache, e.2 < s.heap.length) (q : Str) (a : ℕ) (g : ρ → ρ)
    (hcall : (Cache.call f s q).1 = .ok a) (ops : List (Cache.Op ρ)) (K : Finset Str)
    (hK : K.card < 128) (hops : ∀ k, Cache.Op.call k ∈ ops → k = q ∨ k ∈ K)
    (hw : ∀ g', Cache.Op.write a g' ∉ ops) :
    ∃ r, Cache.read (Cache.call f s q).2 a = some r ∧
      (Cache.call f (Cache.run f (Cache.write (Cache.call f s q).2 a g) ops) q).1 = .ok a ∧
      Cache.read (Cache.call f (Cache.run f (Cache.write (Cache.call f s q).2 a g) ops) q).2 a =
        some (g r) := by
  obtain ⟨h1, -, -, h4⟩ := Cache.call_ok f hs q
  obtain ⟨ha, t, ht⟩ := h4 a hcall
  generalize (Cache.call f s q).2 = s1 at *
  have hw1 := Cache.write_ok h1 a g
  have held : Cache.Held (Cache.write s1 a g) q a K := ⟨[], t, by simpa [Cache.write] using ht,
    by simp, by simp⟩
  have held2 := held.run (f := f) hK ops hops
  have hr := Cache.run_ok f ops hw1.1
  have ha2 : a < (Cache.write s1 a g).heap.length := by rw [hw1.2]; exact ha
  have hread := Cache.run_read f a ops hw hw1.1 ha2
  refine ⟨s1.heap[a], by simp [Cache.read, ha], ?_, ?_⟩
  · unfold Cache.call
    rw [held2.lookup]
  · have h5 := Cache.call_ok f hr.1 q
    rw [h5.2.2.1 a (lt_of_lt_of_le ha2 hr.2), hread]
    simp [Cache.read, Cache.write, ha]

/-- **C72 (engine, later).** After any history, once 128 different other requests have been
answered since the last `engine(q)`, the next `engine(q)` returns a new record that holds the
table's data whatever was written before. -/
theorem C72_engine_record_forgotten {ρ : Type} (f : Str → Except PyError ρ)
    (before ops : List (Cache.Op ρ)) (q : Str) (r : ρ) (hr : f q = .ok r) (K : Finset Str)
    (hK : 128 ≤ K.card) (hops : ∀ k ∈ K, Cache.Op.call k ∈ ops ∧ ∃ x, f k = .ok x)
    (hq : Cache.Op.call q ∉ ops) :
    ∃ a, (Cache.call f (Cache.run f ⟨[], []⟩ (before ++ ops)) q).1 = .ok a ∧
      Cache.read (Cache.run f ⟨[], []⟩ (before ++ ops)) a = none ∧
      Cache.read (Cache.call f (Cache.run f ⟨[], []⟩ (before ++ ops)) q).2 a = some r := by
  have h0 := Cache.run_length f before (s := ⟨[], []⟩) (by simp)
  have h1 := Cache.forgotten (f := f) ops hq K hK hops h0
  rw [show Cache.run f (Cache.run f ⟨[], []⟩ before) ops = Cache.run f ⟨[], []⟩ (before ++ ops) by
    simp [Cache.run]] at h1
  refine ⟨(Cache.run f ⟨[], []⟩ (before ++ ops)).heap.length, ?_, ?_, ?_⟩ <;>
    simp [Cache.call, h1, hr, Cache.read]

/-- **C72 (aircraft).** A record returned by the uncached `aircraft` is new and holds the
table's data whatever happened before. -/
theorem C72_aircraft_record_fresh {ρ : Type} (f : Str → Except PyError ρ) (s : Cache.State ρ)
    (q : Str) (r : ρ) (h : f q = .ok r) :
    ∃ a, (Cache.fresh f s q).1 = .ok a ∧ Cache.read (Cache.fresh f s q).2 a = some r ∧
      Cache.read s a = none := by
  refine ⟨s.heap.length, ?_, ?_, ?_⟩ <;> simp [Cache.fresh, h, Cache.read]

/-- A concrete case: the caller overwrites the rated thrust of an engine, then asks again. -/
example : ∃ r, Cache.read (Cache.call (fun q => engine shipped q) ⟨[], []⟩ cfm56).2 0 = some r ∧
    Cache.read (Cache.call (fun q => engine shipped q)
      (Cache.run (fun q => engine shipped q)
        (Cache.write (Cache.call (fun q => engine shipped q) ⟨[], []⟩ cfm56).2 0
          (fun x => ({ x.1 with maxThrust := some 0 }, x.2))) [.call trent772]) cfm56).2 0 =
      some ({ r.1 with maxThrust := some 0 }, r.2) := by
  have hcall : (Cache.call (fun q => engine shipped q) ⟨[], []⟩ cfm56).1 = .ok 0 := by
    have : (match (Cache.call (fun q => engine shipped q) ⟨[], []⟩ cfm56).1 with
      | .ok a => decide (a = 0) | .error _ => false) = true := by decide +kernel
    cases h : (Cache.call (fun q => engine shipped q) ⟨[], []⟩ cfm56).1 with
    | ok a =>
      rw [h] at this
      simp only [decide_eq_true_eq] at this
      rw [this]
    | error e => rw [h] at this; simp at this
  obtain ⟨r, h1, -, h3⟩ := C72_engine_record_shared (fun q => engine shipped q) ⟨[], []⟩
    (by simp) cfm56 0 (fun x => ({ x.1 with maxThrust := some 0 }, x.2)) hcall [.call trent772]
    {trent772} (by simp) (by simp) (by simp)
  exact ⟨r, h1, h3⟩

/-- **C73.** `Thrust(ac, eng)` constructs exactly when the aircraft is found, some table name
starts with the request, and (unless overridden by `force_engine`) one of the aircraft's
options occurs in the request; letter case is ignored throughout. -/
theorem C73_engine_accepted_iff (db : DB) (ac eng core : Str) (syn : Option Bool) (force : Bool)
    (hc : Stripped eng core) :
    (∃ x, Construct.thrust db ac (some eng) syn force = .ok x) ↔
      ∃ a, aircraft db ac (syn.getD false) = .ok a ∧ (∃ r ∈ db.engines, PrefixCI core r.name) ∧
        (force = true ∨ ∃ opt ∈ a.options, OccursCI opt eng) := by
  have hup : ∀ s : Str, upper (upper s) = upper s := by
    intro s
    unfold upper
    rw [List.map_map]
    apply List.map_congr_left
    intro c _
    simp only [Function.comp, upC]
    split_ifs <;> omega
  have hst : SameText (upper eng) eng := by rw [← upper_eq_iff, hup]
  have heng := (C70_case_insensitive db (upper eng) eng hst false).2
  unfold Construct.thrust
  cases ha : aircraft db ac (syn.getD false) with
  | error e => simp [bind, Except.bind]
  | ok a =>
    simp only [bind, Except.bind, Option.getD_some, pure, Except.pure]
    rcases engine_spec db hc with ⟨r, h1, p, s, h2, h3, -⟩ | ⟨h1, h2⟩
    · rw [h1] at heng
      rcases he : engine db (upper eng) with e | ⟨r', n⟩
      · rw [he] at heng; simp [Except.map] at heng
      · have hn : n = upper eng := by
          unfold engine at he
          simp only at he
          split at he
          · simp at he
          · simp only [Except.ok.injEq, Prod.mk.injEq] at he; exact he.2.symm
        subst hn
        simp only [hup]
        have hany : (a.options.any fun opt => isIn (upper opt) (upper eng)) = true ↔
            ∃ opt ∈ a.options, OccursCI opt eng := by
          rw [List.any_eq_true]
          constructor
          · rintro ⟨o, ho, h⟩; exact ⟨o, ho, (occurs_iff _ _).1 h⟩
          · rintro ⟨o, ho, h⟩; exact ⟨o, ho, (occurs_iff _ _).2 h⟩
        constructor
        · rintro ⟨x, hx⟩
          refine ⟨a, rfl, ⟨r, by rw [h2]; simp, h3⟩, ?_⟩
          rw [← hany]
          by_contra hcon
          push Not at hcon
          simp [hcon.1, Bool.eq_false_iff.2 hcon.2, throw, throwThe, MonadExceptOf.throw] at hx
        · rintro ⟨a', ha', -, h⟩
          simp only [Except.ok.injEq] at ha'
          subst ha'
          refine ⟨(a, r'), ?_⟩
          rw [← hany] at h
          rcases h with h | h
          · simp [h]
          · simp [h]
    · rw [h1] at heng
      constructor
      · rintro ⟨x, hx⟩
        rcases he : engine db (upper eng) with e | ⟨r', n⟩
        · rw [he] at hx; simp at hx
        · rw [he] at heng; simp [Except.map] at heng
      · rintro ⟨a', -, ⟨r, hr, hp⟩, -⟩
        exact absurd hp (h2 r hr)

/-- **C73 (surprise).** For the A320, the request "CFM56-5B", a prefix of its default engine
"CFM56-5B4" and of a table name, is rejected although `engine` finds data for it. -/
theorem C73_prefix_of_option_rejected :
    Except.isOk' (engine shipped cfm56pre) = true ∧
    (match aircraft shipped codeA320 false with
      | .ok a => cfm56pre.isPrefixOf a.default = true
      | .error _ => False) ∧
    Except.isOk' (Construct.thrust shipped codeA320 (some cfm56pre) none false) = false ∧
    Except.isOk' (Construct.thrust shipped codeA320 (some cfm56pre) none true) = true := by
  refine ⟨by decide +kernel, ?_, by decide +kernel, by decide +kernel⟩
  have : (match aircraft shipped codeA320 false with
      | .ok a => cfm56pre.isPrefixOf a.default
      | .error _ => false) = true := by decide +kernel
  revert this
  cases aircraft shipped codeA320 false <;> simp

/-- **C82.** Asking for an engine by its exact table name returns that row, for every row of
the shipped table except three, which are shadowed by an earlier row: PW1923G (by PW1923G-A),
PW4X58 (by PW4x58) and Trent XWB-79 (by Trent XWB-79B). For PW4X58 the data differ. -/
theorem C82_exact_name :
    (∀ r ∈ shipped.engines,
      (r.name ∉ [[80, 87, 49, 57, 50, 51, 71], [80, 87, 52, 88, 53, 56],
        [84, 114, 101, 110, 116, 32, 88, 87, 66, 45, 55, 57]] →
        engine shipped r.name = .ok (r, r.name)) ∧
      (r.name ∈ [[80, 87, 49, 57, 50, 51, 71], [80, 87, 52, 88, 53, 56],
        [84, 114, 101, 110, 116, 32, 88, 87, 66, 45, 55, 57]] →
        ∃ r', engine shipped r.name = .ok (r', r.name) ∧ r' ≠ r)) ∧
    (∃ r ∈ shipped.engines, r.name = [80, 87, 52, 88, 53, 56] ∧ ∃ r',
      engine shipped r.name = .ok (r', r.name) ∧ r'.ff ≠ r.ff) := by
  constructor
  · intro r hr
    have : shipped.engines.all (fun r => match engine shipped r.name with
        | .error _ => false
        | .ok x => decide (x.2 = r.name) && (decide (x.1 = r) !=
          decide (r.name ∈ [[80, 87, 49, 57, 50, 51, 71], [80, 87, 52, 88, 53, 56],
            [84, 114, 101, 110, 116, 32, 88, 87, 66, 45, 55, 57]]))) = true := by
      decide +kernel
    have := List.all_eq_true.1 this r hr
    rcases h : engine shipped r.name with e | ⟨x, n⟩
    · rw [h] at this; simp at this
    · rw [h] at this
      simp only [Bool.and_eq_true, decide_eq_true_eq, bne_iff_ne, ne_eq,
        decide_eq_decide] at this
      obtain ⟨rfl, h2⟩ := this
      constructor
      · intro hn
        have : x = r := by
          by_contra hx
          exact h2 ⟨fun h => absurd h hx, fun h => absurd h hn⟩
        rw [this]
      · intro hn
        refine ⟨x, rfl, fun hx => h2 ⟨fun _ => hn, fun _ => hx⟩⟩
  · have : shipped.engines.any (fun r => decide (r.name = [80, 87, 52, 88, 53, 56]) &&
        match engine shipped r.name with
        | .error _ => false
        | .ok x => decide (x.2 = r.name) && decide (x.1.ff ≠ r.ff)) = true := by
      decide +kernel
    obtain ⟨r, hr, h⟩ := List.any_eq_true.1 this
    simp only [Bool.and_eq_true, decide_eq_true_eq] at h
    refine ⟨r, hr, h.1, ?_⟩
    have h2 := h.2
    rcases he : engine shipped r.name with e | ⟨x, n⟩
    · rw [he] at h2; simp at h2
    · rw [he] at h2
      simp only [Bool.and_eq_true, decide_eq_true_eq] at h2
      exact ⟨x, by rw [h2.1], h2.2⟩

/-- C72: asking for 140 names of the shipped table makes the cache forget the record of
another engine, whatever was written to it. -/
example (g : EngineRow × Str → EngineRow × Str) : ∃ r a,
    engine shipped cfm56 = .ok r ∧
    Cache.read (Cache.call (fun q => engine shipped q)
      (Cache.run (fun q => engine shipped q) ⟨[], []⟩ ([.call cfm56, .write 0 g] ++
        (((shipped.engines.map (·.name)).take 141).filter (· != cfm56)).map .call)) cfm56).2 a =
      some r := by
  have hall : ∀ k ∈ (shipped.engines.map (·.name)), ∃ x, engine shipped k = .ok x := by
    intro k hk
    obtain ⟨r, hr, rfl⟩ := List.mem_map.1 hk
    have h := C82_exact_name.1 r hr
    by_cases hm : r.name ∈ [[80, 87, 49, 57, 50, 51, 71], [80, 87, 52, 88, 53, 56],
        [84, 114, 101, 110, 116, 32, 88, 87, 66, 45, 55, 57]]
    · obtain ⟨r', h', -⟩ := h.2 hm
      exact ⟨_, h'⟩
    · exact ⟨_, h.1 hm⟩
  have hcfm : Except.isOk' (engine shipped cfm56) = true := by decide +kernel
  cases hr : engine shipped cfm56 with
  | error e => rw [hr] at hcfm; simp [Except.isOk'] at hcfm
  | ok r =>
    obtain ⟨a, -, -, h⟩ := C72_engine_record_forgotten (fun q => engine shipped q)
      [.call cfm56, .write 0 g]
      ((((shipped.engines.map (·.name)).take 141).filter (· != cfm56)).map .call) cfm56 r hr
      (((shipped.engines.map (·.name)).take 141).filter (· != cfm56)).toFinset
      (by decide +kernel)
      (by
        intro k hk
        have hk := List.mem_toFinset.1 hk
        exact ⟨List.mem_map.2 ⟨k, hk, rfl⟩,
          hall k (List.mem_of_mem_take (List.mem_of_mem_filter hk))⟩)
      (by simp)
    exact ⟨r, a, rfl, h⟩

end Verif.Props
