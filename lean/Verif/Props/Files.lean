import Verif.Lemmas.Files
import Verif.Lemmas.Cache
import Verif.Model.Construct

/-!
# Which files on disk a type code reads (C148)
-/

namespace Verif.Props
open Verif.Tables Verif.Registry Verif.Files Verif.Spec.Files

/-! ## Without slashes: the tables of the other models -/

/-- **C148, the tables.** In an ordinary installation, for codes and synonyms without a slash, `aircraft`
reads the disk as `Registry.aircraft` reads the table of the files in the directory. -/
theorem C148_table {fs : Disk AircraftRow} {dir : List Str} (h : Installed fs dir yml) (db : DB)
    {ac : Str} (h1 : 47 ∉ ac) (h2 : ∀ e ∈ db.aircraftSyn, 47 ∉ e.2) (useSynonym : Bool) :
    Files.aircraft fs dir db.aircraftSyn ac useSynonym =
      Registry.aircraft { db with aircraft := table dir yml fs } ac useSynonym := by
  have hl : 47 ∉ lower ac := by
    intro hc
    obtain ⟨d, hd, e⟩ := List.mem_map.1 hc
    unfold loC at e
    split_ifs at e
    · omega
    · exact h1 (e ▸ hd)
  unfold Files.aircraft Registry.aircraft
  simp only
  rcases glob_table h ending_yml hl with ⟨e1, e2⟩ | ⟨p, l, t, x, r, e1, -, e3, e4⟩
  · rw [e1, e2]
    simp only
    rcases hs : lookup (lower ac) db.aircraftSyn with _ | new
    · rfl
    · simp only
      rcases glob_table h ending_yml (h2 _ (Cache.lookup_mem hs)) with
        ⟨e1, e2⟩ | ⟨p, l, t, x, r, e1, -, e3, e4⟩
      · rw [e1, e2]
      · rw [e1, e4]
        simp only [e3]
  · rw [e1, e4]
    exact e3

private theorem find_table {β : Type} (fs : Disk β) (dir : List Str) (ext s : Str) :
    (match fs.find? fun f => f.1 == dir ++ [s ++ ext] with
      | some f => (.ok f.2 : Except PyError β)
      | none => .error .ioError) =
    match lookup s (table dir ext fs) with
      | some x => .ok x
      | none => .error .ioError := by
  induction fs with
  | nil => rfl
  | cons f fs ih =>
    by_cases he : ∃ t, f.1 = dir ++ [t ++ ext]
    · obtain ⟨t, ht⟩ := he
      rw [table_hit ht, lookup]
      by_cases hts : t = s
      · subst hts
        rw [List.find?_cons_of_pos (by simp [ht]), if_pos rfl]
      · rw [List.find?_cons_of_neg (by simp [ht, hts]), if_neg hts]
        exact ih
    · rw [table_skip fun t ht => he ⟨t, ht⟩,
        List.find?_cons_of_neg (by simpa using fun h => he ⟨s, h⟩)]
      exact ih

private theorem open_table {β : Type} {fs : Disk β} {dir : List Str} {ext s : Str}
    (h : Installed fs dir ext) (he : Ending ext) (hs : 47 ∉ s) :
    openFile fs (dir ++ names (s ++ ext)) = match lookup s (table dir ext fs) with
      | some x => .ok x
      | none => .error .ioError := by
  rw [names_single (by simp [hs, he.slash]) (by simp [he.ne]), openFile_eq h he]
  exact find_table fs dir ext s

private theorem code_file {dir : List Str} {ext s : Str} (he : ext.length = 4) (hs : s.length = 4) :
    code (dir ++ [s ++ ext]) = lower s := by
  unfold code
  simp [he, hs]

/-- The type codes read off the listing of a directory with four-letter names. -/
private theorem codes_table {β : Type} {fs : Disk β} {dir : List Str} {ext : Str}
    (h : Installed fs dir ext) (he : Ending ext) (h4 : ext.length = 4)
    (hn : ∀ f ∈ table dir ext fs, f.1.length = 4) (ac : Str) :
    ac ∈ (Files.glob fs [[]] (dir ++ [[42] ++ ext])).map code ↔
      ac ∈ (table dir ext fs).map fun f => lower f.1 := by
  have hd : ∀ c ∈ dir, hasMagic c = false := fun c hc => hasMagic_plain (h.plain c hc).1
  have hx : lexists fs dir = true := by unfold lexists; rw [installed_walk h]; rfl
  have mem : ∀ t x, (t, x) ∈ table dir ext fs ↔ ∃ f ∈ fs, f.1 = dir ++ [t ++ ext] ∧ f.2 = x := by
    intro t x
    unfold table
    rw [List.mem_filterMap]
    constructor
    · rintro ⟨f, hf, e⟩
      rcases entry_eq (dir := dir) (ext := ext) f with ⟨e', -⟩ | ⟨s, h1, e'⟩
      · rw [e'] at e; cases e
      · rw [e'] at e
        simp only [Option.some.injEq, Prod.mk.injEq] at e
        obtain ⟨rfl, rfl⟩ := e
        exact ⟨f, hf, h1, rfl⟩
    · rintro ⟨f, hf, h1, rfl⟩
      rcases entry_eq (dir := dir) (ext := ext) f with ⟨-, e⟩ | ⟨s, e, e'⟩
      · exact absurd h1 (e t)
      · rw [h1] at e
        obtain rfl : t = s := by simpa using e
        exact ⟨f, hf, e'⟩
  have listed : ∀ p, p ∈ Files.glob fs [[]] (dir ++ [[42] ++ ext]) ↔
      ∃ f ∈ table dir ext fs, p = dir ++ [f.1 ++ ext] := by
    intro p
    rw [glob_dir hd hx]
    simp only [Files.glob, List.flatMap_cons, List.flatMap_nil, List.append_nil]
    unfold expand
    rw [if_pos (by rw [hasMagic_append _ _ he.plain]; rfl), installed_walk h]
    simp only [List.mem_map, List.mem_filter, mem_listdir, Bool.true_or, Bool.and_true,
      Bool.and_eq_true, fnmatch_append he.ne he.plain he.close]
    constructor
    · rintro ⟨n, ⟨⟨f, hf, hp⟩, -, t, rfl, -⟩, rfl⟩
      exact ⟨(t, f.2), (mem _ _).2 ⟨f, hf, (h.entries f hf _ hp (List.suffix_append _ _)).1, rfl⟩, rfl⟩
    · rintro ⟨⟨t, x⟩, hf, rfl⟩
      obtain ⟨f, hf', h1, rfl⟩ := (mem _ _).1 hf
      have hp : dir ++ [t ++ ext] <+: f.1 := by rw [h1]
      refine ⟨t ++ ext, ⟨⟨f, hf', hp⟩, ?_, t, rfl, ?_⟩, rfl⟩
      · have := (h.entries f hf' _ hp (List.suffix_append _ _)).2
        have h0 : Files.hidden (t ++ ext) = false := by
          unfold Files.hidden
          rw [beq_eq_false_iff_ne]
          exact this
        rw [h0, Bool.not_false, Bool.or_true]
      · show fnmatch [42] t = true
        simp [fnmatch, pieces, matchPieces]
  rw [List.mem_map, List.mem_map]
  constructor
  · rintro ⟨p, hp, rfl⟩
    obtain ⟨f, hf, rfl⟩ := (listed p).1 hp
    exact ⟨f, hf, (code_file h4 (hn f hf)).symm⟩
  · rintro ⟨f, hf, rfl⟩
    exact ⟨_, (listed _).2 ⟨f, hf, rfl⟩, code_file h4 (hn f hf)⟩

/-- **C148, drag polars.** The same for the drag polars, if the file names have four letters. -/
theorem C148_polar {fs : Disk PolarRow} {dir : List Str} (h : Installed fs dir yml)
    (hn : ∀ f ∈ table dir yml fs, f.1.length = 4) (db : DB) {ac : Str} (h1 : 47 ∉ ac)
    (h2 : ∀ e ∈ db.polarSyn, 47 ∉ e.2) (useSynonym : Option Bool) :
    polarFile fs dir db.polarSyn ac (useSynonym.getD false) =
      Construct.polar { db with polars := table dir yml fs } ac useSynonym := by
  unfold polarFile modelFile Construct.polar
  simp only
  by_cases hc : ac ∈ (table dir yml fs).map fun f => lower f.1
  · rw [if_pos ((codes_table h ending_yml rfl hn ac).2 hc), if_pos hc]
    rw [open_table h ending_yml h1]
    simp only
    rcases lookup ac (table dir yml fs) with _ | x <;> rfl
  · rw [if_neg (fun k => hc ((codes_table h ending_yml rfl hn ac).1 k)), if_neg hc]
    rcases hs : lookup ac db.polarSyn with _ | new
    · rfl
    · rcases useSynonym.getD false with _ | _
      · rfl
      · simp only [if_true, open_table h ending_yml (h2 _ (Cache.lookup_mem hs))]
        rcases lookup new (table dir yml fs) with _ | x <;> rfl

/-- **C148, kinematic models.** The same for the kinematic models. -/
theorem C148_wrap {fs : Disk (List WrapRow)} {dir : List Str} (h : Installed fs dir txt)
    (hn : ∀ f ∈ table dir txt fs, f.1.length = 4) (db : DB) {ac : Str} (h1 : 47 ∉ ac)
    (h2 : ∀ e ∈ db.wrapSyn, 47 ∉ e.2) (useSynonym : Option Bool) :
    wrapFile fs dir db.wrapSyn ac (useSynonym.getD true) =
      Construct.wrap { db with wrap := table dir txt fs } ac useSynonym := by
  have hl : 47 ∉ lower ac := by
    intro hc
    obtain ⟨d, hd, e⟩ := List.mem_map.1 hc
    unfold loC at e
    split_ifs at e
    · omega
    · exact h1 (e ▸ hd)
  unfold wrapFile modelFile Construct.wrap
  simp only
  by_cases hc : lower ac ∈ (table dir txt fs).map fun f => lower f.1
  · rw [if_pos ((codes_table h ending_txt rfl hn _).2 hc), if_pos hc]
    rw [open_table h ending_txt hl]
    simp only
    rcases lookup (lower ac) (table dir txt fs) with _ | x <;> rfl
  · rw [if_neg (fun k => hc ((codes_table h ending_txt rfl hn _).1 k)), if_neg hc]
    rcases hs : lookup (lower ac) db.wrapSyn with _ | new
    · rcases useSynonym.getD true with _ | _ <;> rfl
    · rcases useSynonym.getD true with _ | _
      · rfl
      · simp only [if_true, open_table h ending_txt (h2 _ (Cache.lookup_mem hs))]
        rcases lookup new (table dir txt fs) with _ | x <;> rfl

/-! ## With slashes: anywhere on the disk -/

private theorem join_ending (l : List Str) (n e : Str) :
    [47].intercalate (l ++ [n]) ++ e = [47].intercalate (l ++ [n ++ e]) := by
  induction l with
  | nil => simp [List.intercalate]
  | cons c l ih =>
    rcases l with _ | ⟨d, l⟩
    · simp [List.intercalate]
    · have : ∀ (r : List Str) , [47].intercalate (c :: d :: r) = c ++ 47 :: [47].intercalate (d :: r) := by
        intro r
        simp [List.intercalate, List.intersperse]
      rw [List.cons_append, List.cons_append, this, List.cons_append, List.cons_append, this,
        ← List.cons_append, ← List.cons_append, ← ih]
      simp

private theorem lower_join (l : List Str) : lower ([47].intercalate l) = [47].intercalate (l.map lower) := by
  induction l with
  | nil => rfl
  | cons c l ih =>
    rcases l with _ | ⟨d, l⟩
    · simp [List.intercalate]
    · have : ∀ (c d : Str) (r : List Str), [47].intercalate (c :: d :: r) =
          c ++ 47 :: [47].intercalate (d :: r) := by
        intro c d r
        simp [List.intercalate, List.intersperse]
      rw [this, List.map_cons, List.map_cons, this, ← List.map_cons, ← ih]
      simp [lower, loC]

/-- **C148, leaving the directory.** A type code beginning with `k` times `../` reads the files below the
directory `k` levels up, whatever they are, as long as their names are in lower case, without wildcards,
and end in `.yml`. -/
theorem C148_leaves {β : Type} {fs : Disk β} {dir : List Str} (h : Installed fs dir yml)
    (hu : (fs.map (·.1)).Nodup) {k : ℕ} (hk : k ≤ dir.length) {sub : List Str} {n : Str} {x : β}
    (hf : (dir.take (dir.length - k) ++ sub ++ [n ++ yml], x) ∈ fs)
    (hc : ∀ c ∈ sub ++ [n], Plain c ∧ lower c = c ∧ 47 ∉ c)
    (hd : ∀ c ∈ sub, c ≠ [] ∧ c ≠ [46] ∧ c ≠ [46, 46]) (syn : List (Str × Str)) (useSynonym : Bool) :
    Files.aircraft fs dir syn (climb k (sub ++ [n])) useSynonym = .ok x := by
  have hn := hc n (by simp)
  have hlow : lower (climb k (sub ++ [n])) = climb k (sub ++ [n]) := by
    unfold climb
    rw [lower_join, List.map_append, List.map_replicate]
    congr 2
    conv_rhs => rw [← List.map_id (sub ++ [n])]
    exact List.map_congr_left fun c hc' => (hc c hc').2.1
  have hnames : names (climb k (sub ++ [n]) ++ yml) =
      List.replicate k [46, 46] ++ (sub ++ [n ++ yml]) := by
    unfold climb
    rw [← List.append_assoc, join_ending, names_joined, List.append_assoc]
    · intro c hc'
      simp only [List.mem_append, List.mem_replicate, List.mem_singleton] at hc'
      rcases hc' with (⟨-, rfl⟩ | hs) | rfl
      · decide
      · exact ⟨(hc c (by simp [hs])).2.2, (hd c hs).1⟩
      · have : 47 ∉ yml := by decide
        exact ⟨by simp [hn.2.2, this], by simp [yml]⟩
    · simp
  have hmag : ∀ c ∈ dir ++ (List.replicate k [46, 46] ++ (sub ++ [n ++ yml])), hasMagic c = false := by
    intro c hc'
    simp only [List.mem_append, List.mem_replicate, List.mem_singleton] at hc'
    rcases hc' with hs | ⟨-, rfl⟩ | hs | rfl
    · exact hasMagic_plain (h.plain c hs).1
    · decide
    · exact hasMagic_plain (hc c (by simp [hs])).1
    · rw [hasMagic_append _ _ ending_yml.plain]
      exact hasMagic_plain hn.1
  have hfile : isFile fs (dir.take (dir.length - k) ++ (sub ++ [n ++ yml])) = true :=
    isFile_iff.2 ⟨_, hf, by simp⟩
  have hw : walk fs [] (dir ++ (List.replicate k [46, 46] ++ (sub ++ [n ++ yml]))) =
      some (dir.take (dir.length - k) ++ (sub ++ [n ++ yml])) := by
    rw [walk_append, installed_walk h, Option.bind_some, walk_append, walk_up (installed_dir h) k hk,
      Option.bind_some, walk_down]
    · intro c hc'
      rcases List.mem_append.1 hc' with hs | hs
      · exact (hd c hs).2
      · rw [List.mem_singleton.1 hs]
        exact ending_yml.name n
    · exact .inr hfile
  unfold Files.aircraft
  simp only
  rw [hlow, hnames, glob_plain hmag (by simp), List.nil_append, if_pos (by unfold lexists; rw [hw]; rfl)]
  simp only
  unfold openFile
  rw [hw]
  simp only
  have : (fs.find? fun f => f.1 == dir.take (dir.length - k) ++ (sub ++ [n ++ yml])) =
      some (dir.take (dir.length - k) ++ sub ++ [n ++ yml], x) := by
    have huniq : ∀ f ∈ fs, f.1 = dir.take (dir.length - k) ++ (sub ++ [n ++ yml]) →
        f = (dir.take (dir.length - k) ++ sub ++ [n ++ yml], x) := by
      intro f hf' e
      exact List.inj_on_of_nodup_map hu hf' hf (by rw [e]; simp)
    rcases hfd : fs.find? fun f => f.1 == dir.take (dir.length - k) ++ (sub ++ [n ++ yml]) with _ | f
    · rw [List.find?_eq_none] at hfd
      exact absurd (hfd _ hf) (by simp)
    · rw [hfd, huniq f (List.mem_of_find?_eq_some hfd) (by simpa using List.find?_some hfd)]
  rw [this]

/-- **C148, every `.yml` file.** So every such file of the disk is read by some type code. -/
theorem C148_everywhere {β : Type} {fs : Disk β} {dir : List Str} (h : Installed fs dir yml)
    (hu : (fs.map (·.1)).Nodup) {sub : List Str} {n : Str} {x : β} (hf : (sub ++ [n ++ yml], x) ∈ fs)
    (hc : ∀ c ∈ sub ++ [n], Plain c ∧ lower c = c ∧ 47 ∉ c)
    (hd : ∀ c ∈ sub, c ≠ [] ∧ c ≠ [46] ∧ c ≠ [46, 46]) :
    ∃ ac, ∀ syn useSynonym, Files.aircraft fs dir syn ac useSynonym = .ok x :=
  ⟨_, C148_leaves h hu le_rfl (sub := sub) (n := n) (by simpa using hf) hc hd⟩

/-- **C148, only `.yml` files.** Whatever the code and the installation directory, what is read is a file
whose name ends in `.yml`. -/
theorem C148_only {β : Type} {fs : Disk β} {dir : List Str} {syn : List (Str × Str)} {ac : Str}
    {useSynonym : Bool} {x : β} (h : Files.aircraft fs dir syn ac useSynonym = .ok x) :
    ∃ d n, (d ++ [n ++ [46, 121, 109, 108]], x) ∈ fs := by
  have key : ∀ s p l, Files.glob fs [[]] (dir ++ names (s ++ yml)) = p :: l → openFile fs p = .ok x →
      ∃ d n, (d ++ [n ++ [46, 121, 109, 108]], x) ∈ fs := by
    intro s p l hg ho
    obtain ⟨q, n, hn⟩ := names_ending ending_yml.slash ending_yml.ne s
    have hp : p ∈ Files.glob fs [[]] ((dir ++ q) ++ [n ++ yml]) := by
      rw [List.append_assoc, ← hn, hg]; simp
    obtain ⟨d, m, rfl, hm⟩ := glob_last hp
    have hm' : ∃ t, m = t ++ yml := by
      rcases hm with rfl | ⟨-, hm⟩
      · exact ⟨n, rfl⟩
      · obtain ⟨t, rfl, -⟩ := (fnmatch_append ending_yml.ne ending_yml.plain ending_yml.close).1 hm
        exact ⟨t, rfl⟩
    obtain ⟨t, rfl⟩ := hm'
    unfold openFile at ho
    rcases hw : walk fs [] (d ++ [t ++ yml]) with _ | cur
    · rw [hw] at ho; cases ho
    · rw [hw] at ho
      simp only at ho
      obtain ⟨r, -, rfl, -⟩ := walk_last (ending_yml.name t) hw
      rcases hfd : fs.find? fun f => f.1 == r ++ [t ++ yml] with _ | f
      · rw [hfd] at ho; cases ho
      · rw [hfd] at ho
        obtain rfl : f.2 = x := by simpa using ho
        have e : f.1 = r ++ [t ++ yml] := by simpa using List.find?_some hfd
        refine ⟨r, t, ?_⟩
        have := List.mem_of_find?_eq_some hfd
        rw [show ([46, 121, 109, 108] : Str) = yml from rfl, ← e]
        exact this
  unfold Files.aircraft at h
  simp only at h
  rcases hg : Files.glob fs [[]] (dir ++ names (lower ac ++ yml)) with _ | ⟨p, l⟩
  · rw [hg] at h
    simp only at h
    rcases hs : lookup (lower ac) syn with _ | new
    · rw [hs] at h; cases h
    · rw [hs] at h
      simp only at h
      rcases useSynonym with _ | _
      · simp at h
      · rw [if_pos rfl] at h
        rcases hg' : Files.glob fs [[]] (dir ++ names (new ++ yml)) with _ | ⟨p, l⟩
        · rw [hg'] at h; cases h
        · rw [hg'] at h
          exact key _ p l hg' h
  · rw [hg] at h
    exact key _ p l hg h

private theorem openFile_ending {β : Type} {fs : Disk β} {dir : List Str} {ext : Str} (he : Ending ext)
    {s : Str} {x : β} (h : openFile fs (dir ++ names (s ++ ext)) = .ok x) :
    ∃ d n, (d ++ [n ++ ext], x) ∈ fs := by
  obtain ⟨q, n, hn⟩ := names_ending he.slash he.ne s
  rw [hn, ← List.append_assoc] at h
  unfold openFile at h
  rcases hw : walk fs [] ((dir ++ q) ++ [n ++ ext]) with _ | cur
  · rw [hw] at h; cases h
  · rw [hw] at h
    simp only at h
    obtain ⟨r, -, rfl, -⟩ := walk_last (he.name n) hw
    rcases hfd : fs.find? fun f => f.1 == r ++ [n ++ ext] with _ | f
    · rw [hfd] at h; cases h
    · rw [hfd] at h
      obtain rfl : f.2 = x := by simpa using h
      have e : f.1 = r ++ [n ++ ext] := by simpa using List.find?_some hfd
      refine ⟨r, n, ?_⟩
      rw [← e]
      exact List.mem_of_find?_eq_some hfd

/-- **C148, only `.yml` and `.txt` files.** Whatever the code and the installation directory, a drag polar
is read from a file whose name ends in `.yml`, a kinematic model from one whose name ends in `.txt`. -/
theorem C148_only_models {β : Type} {fs : Disk β} {dir : List Str} {syn : List (Str × Str)} {ac : Str}
    {useSynonym : Bool} {x : β} :
    (polarFile fs dir syn ac useSynonym = .ok x → ∃ d n, (d ++ [n ++ [46, 121, 109, 108]], x) ∈ fs) ∧
    (wrapFile fs dir syn ac useSynonym = .ok x →
      ∃ d n, (d ++ [n ++ [46, 116, 120, 116]], x) ∈ fs) := by
  have key : ∀ ext, Ending ext → ∀ ac, modelFile fs dir ext syn ac useSynonym = .ok x →
      ∃ d n, (d ++ [n ++ ext], x) ∈ fs := by
    intro ext he ac h
    unfold modelFile at h
    by_cases hc : ac ∈ (Files.glob fs [[]] (dir ++ [[42] ++ ext])).map code
    · rw [if_pos hc] at h
      exact openFile_ending he h
    · rw [if_neg hc] at h
      rcases hs : lookup ac syn with _ | new
      · rw [hs] at h; cases h
      · rw [hs] at h
        rcases useSynonym with _ | _
        · simp at h
        · simp only [if_true] at h
          exact openFile_ending he h
  exact ⟨key yml ending_yml ac, key txt ending_txt (lower ac)⟩

/-- **C148, inside the directory.** Without a slash in the code and the synonyms the file is in the data
directory. -/
theorem C148_inside {β : Type} {fs : Disk β} {dir : List Str} (hi : Installed fs dir yml)
    {syn : List (Str × Str)} {ac : Str} (h1 : 47 ∉ ac) (h2 : ∀ e ∈ syn, 47 ∉ e.2) {useSynonym : Bool}
    {x : β} (h : Files.aircraft fs dir syn ac useSynonym = .ok x) :
    ∃ n, (dir ++ [n ++ [46, 121, 109, 108]], x) ∈ fs := by
  have hl : 47 ∉ lower ac := by
    intro hc
    obtain ⟨d, hd, e⟩ := List.mem_map.1 hc
    unfold loC at e
    split_ifs at e
    · omega
    · exact h1 (e ▸ hd)
  have key : ∀ s, 47 ∉ s → ∀ p l, Files.glob fs [[]] (dir ++ names (s ++ yml)) = p :: l →
      openFile fs p = .ok x → ∃ n, (dir ++ [n ++ [46, 121, 109, 108]], x) ∈ fs := by
    intro s hs p l hg ho
    rcases glob_table hi ending_yml hs with ⟨e1, -⟩ | ⟨p', l', t, x', r, e1, rfl, -, -⟩
    · rw [e1] at hg; cases hg
    · rw [e1] at hg
      obtain ⟨rfl, -⟩ := List.cons.inj hg
      rw [openFile_eq hi ending_yml] at ho
      rcases hfd : fs.find? fun f => f.1 == dir ++ [t ++ yml] with _ | f
      · rw [hfd] at ho; cases ho
      · rw [hfd] at ho
        obtain rfl : f.2 = x := by simpa using ho
        have e : f.1 = dir ++ [t ++ yml] := by simpa using List.find?_some hfd
        refine ⟨t, ?_⟩
        have := List.mem_of_find?_eq_some hfd
        rw [show ([46, 121, 109, 108] : Str) = yml from rfl, ← e]
        exact this
  unfold Files.aircraft at h
  simp only at h
  rcases hg : Files.glob fs [[]] (dir ++ names (lower ac ++ yml)) with _ | ⟨p, l⟩
  · rw [hg] at h
    simp only at h
    rcases hs : lookup (lower ac) syn with _ | new
    · rw [hs] at h; cases h
    · rw [hs] at h
      simp only at h
      rcases useSynonym with _ | _
      · simp at h
      · rw [if_pos rfl] at h
        rcases hg' : Files.glob fs [[]] (dir ++ names (new ++ yml)) with _ | ⟨p, l⟩
        · rw [hg'] at h; cases h
        · rw [hg'] at h
          exact key _ (h2 _ (Cache.lookup_mem hs)) p l hg' h
  · rw [hg] at h
    exact key _ hl p l hg h

/-! ## Brackets in the installation directory -/

/-- **C148, brackets in the path.** If a directory above the package is called `pre[body]post` and no
file or directory of the disk is called `pre` `d` `post` with a character `d` of `body`, then nothing is
listed and every request for an aircraft fails, although the files are there; drag polars and kinematic
models are found through synonyms only. -/
theorem C148_brackets {β : Type} {fs : Disk β} {a b : List Str} {pre body post : Str}
    (hp : Plain pre) (hq : Plain post) (h0 : body ≠ []) (hb : 33 ∉ body ∧ 45 ∉ body ∧ 93 ∉ body)
    (hno : ∀ f ∈ fs, ∀ d ∈ body, pre ++ [d] ++ post ∉ f.1)
    (syn : List (Str × Str)) (ac : Str) (useSynonym : Bool) (ext : Str) :
    let dir := a ++ (pre ++ [91] ++ body ++ [93] ++ post) :: b
    availablePaths fs dir = [] ∧
    Files.aircraft fs dir syn ac useSynonym =
      (if useSynonym = true ∧ (lookup (lower ac) syn).isSome then .error .indexError
        else .error .valueError) ∧
    modelFile fs dir ext syn ac useSynonym = match lookup ac syn with
      | some new => if useSynonym then openFile fs (dir ++ names (new ++ ext)) else .error .valueError
      | none => .error .valueError := by
  intro dir
  have hmagic : hasMagic (pre ++ [91] ++ body ++ [93] ++ post) = true := by
    unfold hasMagic
    rw [List.any_eq_true]
    exact ⟨91, by simp, by decide⟩
  have ranges_id : ∀ l : Str, 45 ∉ l → ranges l = l.map fun c => (c, c) := by
    intro l hl
    induction l with
    | nil => rfl
    | cons c l ih =>
      rcases l with _ | ⟨d, l⟩
      · simp [ranges]
      · have hd : d ≠ 45 := by rintro rfl; simp at hl
        rw [ranges.eq_2 c (d :: l) (by intro d' s' e; simp only [List.cons.injEq] at e; exact hd e.1),
          ih (by simp at hl ⊢; exact hl.2)]
        rfl
  have fit : ∀ n, fnmatch (pre ++ [91] ++ body ++ [93] ++ post) n = true →
      ∃ d ∈ body, n = pre ++ [d] ++ post := by
    intro n hn
    have e : pre ++ [91] ++ body ++ [93] ++ post =
        pre ++ 91 :: ((if false = true then [33] else []) ++ body ++ 93 :: post) := by simp
    have hh : body.head? ≠ some 33 := fun h => hb.1 (List.mem_of_mem_head? h)
    rw [e, fnmatch_set (neg := false) hp hq h0 hh hb.2.2] at hn
    obtain ⟨d, rfl, hd⟩ := hn
    refine ⟨d, ?_, by simp⟩
    rw [ranges_id body hb.2.1] at hd
    simp [fits] at hd
    obtain ⟨c, hc, h1, h2⟩ := hd
    obtain rfl : c = d := le_antisymm h1 h2
    exact hc
  have none' : ∀ rest, rest ≠ [] → Files.glob fs [[]] (dir ++ rest) = [] := by
    intro rest hr
    have e : dir ++ rest = a ++ (pre ++ [91] ++ body ++ [93] ++ post) :: (b ++ rest) := by simp [dir]
    rw [e, glob_append, glob.eq_3 _ _ _ _ (by simp [hr])]
    have : (a.foldl (fun ds c => ds.flatMap (expand fs false c)) [[]]).flatMap
        (expand fs false (pre ++ [91] ++ body ++ [93] ++ post)) = [] := by
      rw [List.flatMap_eq_nil_iff]
      intro d _
      unfold expand
      rw [if_pos hmagic]
      rcases walk fs [] d with _ | cur
      · rfl
      · simp only
        rw [List.map_eq_nil_iff, List.filter_eq_nil_iff]
        intro n hn hk
        obtain ⟨f, hf, hpre⟩ := mem_listdir.1 hn
        simp only [Bool.and_eq_true] at hk
        obtain ⟨c, hc, rfl⟩ := fit n hk.1.2
        refine hno f hf c hc (hpre.subset ?_)
        simp
    rw [this, glob_nil]
  have nm : ∀ s, names (s ++ yml) ≠ [] := by
    intro s
    obtain ⟨q, n, hn⟩ := names_ending ending_yml.slash ending_yml.ne s
    rw [hn]; simp
  refine ⟨none' _ (by simp), ?_, ?_⟩
  · unfold Files.aircraft
    simp only
    rw [none' _ (nm _)]
    rcases lookup (lower ac) syn with _ | new
    · simp
    · rcases useSynonym with _ | _
      · simp
      · simp only [none' _ (nm _)]
        simp
  · unfold modelFile
    rw [none' _ (by simp), List.map_nil, if_neg (by simp)]
    rfl

/-! ## A case -/

/-- `o/a/x.yml`, `o/a/s.csv`, `o/d/x.yml`. -/
private def smallDisk : Disk ℕ :=
  [([[111], [97], [120, 46, 121, 109, 108]], 1), ([[111], [97], [115, 46, 99, 115, 118]], 2),
    ([[111], [100], [120, 46, 121, 109, 108]], 3)]

private theorem small_installed : Installed smallDisk [[111], [97]] yml where
  plain := by
    intro c hc
    simp only [List.mem_cons, List.not_mem_nil, or_false] at hc
    rcases hc with rfl | rfl <;> exact ⟨by unfold Plain; decide, by decide, by decide⟩
  full := ⟨_, List.mem_cons_self, ⟨[_], rfl⟩, by decide⟩
  entries := by
    intro f hf n hp he
    simp only [smallDisk, List.mem_cons, List.not_mem_nil, or_false] at hf
    rcases hf with rfl | rfl | rfl
    · simp [List.cons_prefix_cons] at hp
      subst hp
      exact ⟨rfl, by decide⟩
    · simp [List.cons_prefix_cons] at hp
      subst hp
      exact absurd he (by decide)
    · simp [List.cons_prefix_cons] at hp

/-- The code `x` reads the file in `o/a`, the code `../d/x` the one in `o/d`. -/
example : table [[111], [97]] yml smallDisk = [([120], 1)] ∧
    Files.aircraft smallDisk [[111], [97]] [] [88] false = .ok 1 ∧
    Files.aircraft smallDisk [[111], [97]] [] [46, 46, 47, 100, 47, 120] false = .ok 3 := by
  refine ⟨by decide, ?_, ?_⟩
  · rfl
  · exact C148_leaves small_installed (by decide) (k := 1) (by decide) (sub := [[100]]) (n := [120])
      (by decide) (by unfold Plain; decide) (by decide) [] false

/-- `WRAP("ABCD")` on a disk with `o/abcd.txt`, `o/abcd.yml`. -/
example : wrapFile [([[111], [97, 98, 99, 100, 46, 121, 109, 108]], 1),
      ([[111], [97, 98, 99, 100, 46, 116, 120, 116]], 2)] [[111]] [] [65, 66, 67, 68] true = .ok 2 ∧
    polarFile [([[111], [97, 98, 99, 100, 46, 121, 109, 108]], 1),
      ([[111], [97, 98, 99, 100, 46, 116, 120, 116]], 2)] [[111]] [] [97, 98, 99, 100] true = .ok 1 := by
  exact ⟨rfl, rfl⟩

/-- `o[1]/a/x.yml`: not found, although it is there. -/
example : let fs : Disk ℕ := [([[111, 91, 49, 93], [97], [120, 46, 121, 109, 108]], 1)]
    Files.aircraft fs [[111, 91, 49, 93], [97]] [] [120] false = .error .valueError ∧
    openFile fs [[111, 91, 49, 93], [97], [120, 46, 121, 109, 108]] = .ok 1 :=
  ⟨(C148_brackets (a := []) (b := [[97]]) (pre := [111]) (body := [49]) (post := [])
    (by unfold Plain; decide) (by unfold Plain; decide) (by decide) (by decide) (by decide)
    [] [120] false []).2.1, rfl⟩

end Verif.Props
