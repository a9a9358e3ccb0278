import Verif.Lemmas.Bada3Synonym
import Mathlib.Data.Real.Basic

/-!
# C107: the BADA3 synonym file and `load_bada3`
-/

namespace Verif.Props
open Verif.Tables Verif.Registry Verif.Bada3Parse Verif.Spec Verif.Spec.Opf Verif.Regex

theorem strip_phrase {s : Str} (h : ∀ c, s.head? = some c → ¬ Blank c)
    (h' : ∀ c, s.getLast? = some c → ¬ Blank c) : strip s = s :=
  strip_eq ⟨[], [], by simp, by simp, by simp, h, h'⟩

theorem strip_word {s : Str} (h : ∀ c ∈ s, ¬ Blank c) : strip s = s :=
  strip_phrase (fun c hc => h c (List.mem_of_mem_head? hc)) fun c hc => h c (List.mem_of_getLast? hc)

theorem synonym_skip {ac line : Str} {lines : List Str}
    (h : ∀ code, Code line code → ¬ SameText code ac) :
    readSynonym ac (line :: lines) = readSynonym ac lines := by
  rw [readSynonym]
  split
  · rename_i w code man model syn e
    obtain ⟨code', hc, hh⟩ := synonym_code e
    obtain rfl : code = code' := by simpa using hh
    rw [if_neg fun he => h code hc ((upper_eq_iff _ _).1 he)]
  · rfl

/-- C107: the first well-formed line with the code, whatever the letter case, is returned: the names
as they stand, and the first four characters of the file name. -/
theorem C107_first_line (ac : Str) (before after : List Str) (line code man model file : Str)
    (hl : SynonymLine line code man model file) (hc : SameText code ac)
    (hb : ∀ l ∈ before, ∀ code', Code l code' → ¬ SameText code' ac) :
    readSynonym ac (before ++ line :: after) = .ok
      { aircraft := man ++ chars " " ++ model, manufacturer := man, model := model,
        synonym := file.take 4 } := by
  induction before with
  | nil =>
    obtain ⟨w, e⟩ := synonym_found hl
    rw [List.nil_append, readSynonym, e]
    obtain ⟨b1, x, b2, b3, b4, b5, b6, tail, nl, _, _, _, _, _, _, _, _, hf, hman, _, hmod, _⟩ := hl
    simp only
    rw [if_pos ((upper_eq_iff _ _).2 hc), strip_phrase hman.2.2.1 hman.2.2.2.1,
      strip_phrase hmod.2.2.1 hmod.2.2.2.1, strip_word hf]
    rfl
  | cons l before ih =>
    rw [List.cons_append, synonym_skip (hb l (by simp))]
    exact ih fun l' hl' => hb l' (by simp [hl'])

/-- C107: a code that is the third word of no line is a `ValueError`. -/
theorem C107_unknown (ac : Str) (lines : List Str)
    (h : ∀ l ∈ lines, ∀ code, Code l code → ¬ SameText code ac) :
    readSynonym ac lines = .error .valueError := by
  induction lines with
  | nil => rfl
  | cons l lines ih =>
    rw [synonym_skip (h l (by simp))]
    exact ih fun l' hl' => h l' (by simp [hl'])

/-- C107: a line that does not end in a slash is ignored, even if it has the code. -/
theorem C107_no_slash (ac : Str) (before after : List Str) (line : Str)
    (h : ∀ a, line ≠ a ++ chars "/" ∧ line ≠ a ++ chars "/\n") :
    readSynonym ac (before ++ line :: after) = readSynonym ac (before ++ after) := by
  have hn : matchAt synonymPattern none line = none := by
    cases hm : matchAt synonymPattern none line with
    | none => rfl
    | some m =>
      obtain ⟨a, ha | ha⟩ := synonym_slash hm
      · exact absurd ha (h a).1
      · exact absurd ha (h a).2
  induction before with
  | nil => rw [List.nil_append, readSynonym, hn]; rfl
  | cons l before ih =>
    simp only [List.cons_append]
    rw [readSynonym, readSynonym]
    split
    · split
      · rfl
      · exact ih
    · exact ih

/-- C107: only the code selects: the result is the same for every letter case. -/
theorem C107_letter_case (ac ac' : Str) (lines : List Str) (h : SameText ac ac') :
    readSynonym ac lines = readSynonym ac' lines := by
  have hu : upper ac = upper ac' := (upper_eq_iff _ _).2 h
  induction lines with
  | nil => rfl
  | cons l lines ih => rw [readSynonym, readSynonym, hu, ih]

/-- C107: the lines of a file are its pieces up to and including each line feed. -/
theorem C107_lines (s : Str) : (splitLines [] s).flatten = s ∧ ∀ l ∈ splitLines [] s,
    l ≠ [] ∧ ∃ b nl, l = b ++ nl ∧ (∀ c ∈ b, c ≠ 10) ∧ (nl = [] ∨ nl = [10]) :=
  ⟨by simpa using splitLines_flatten [] s, splitLines_lines [] s (by simp)⟩

/-- C107: `load_bada3` reads `SYNONYM.NEW`, then the file named by the first four characters of the
synonym and `__.OPF`; a missing file is an error and nothing else is read. -/
theorem C107_load (float : Str → Option ℝ) (file : Str → Option Str) (ac : Str) :
    (file (chars "SYNONYM.NEW") = none → loadBada3 float file ac = .error .ioError) ∧
    ∀ text, file (chars "SYNONYM.NEW") = some text →
      (∀ e, readSynonym ac (splitLines [] text) = .error e → loadBada3 float file ac = .error e) ∧
      ∀ syn, readSynonym ac (splitLines [] text) = .ok syn →
        (file (syn.synonym ++ chars "__.OPF") = none → loadBada3 float file ac = .error .ioError) ∧
        ∀ content, file (syn.synonym ++ chars "__.OPF") = some content →
          loadBada3 float file ac = (parseOpf float content).map (syn, ·) := by
  have c1 : chars "SYNONYM.NEW" = [83, 89, 78, 79, 78, 89, 77, 46, 78, 69, 87] := by decide
  have c2 : chars "__.OPF" = [95, 95, 46, 79, 80, 70] := by decide
  rw [c1, c2]
  unfold loadBada3
  constructor
  · intro h; rw [h]; rfl
  · intro text ht
    rw [ht]
    refine ⟨fun e he => ?_, fun syn hs => ?_⟩
    · show (readSynonym ac (splitLines [] text) >>= _) = _
      rw [he]; rfl
    · refine ⟨fun hf => ?_, fun content hf => ?_⟩
      · show (readSynonym ac (splitLines [] text) >>= _) = _
        rw [hs]
        show (match file (syn.synonym ++ _) with | none => _ | some content => _) = _
        rw [hf]; rfl
      · show (readSynonym ac (splitLines [] text) >>= _) = _
        rw [hs]
        show (match file (syn.synonym ++ _) with | none => _ | some content => _) = _
        rw [hf]
        show (parseOpf float content >>= fun opf => pure (syn, opf)) = _
        cases parseOpf float content <;> rfl

/-! ### Cases -/

/-- A line of the shape shipped with BADA. -/
theorem case_line : SynonymLine (chars "CD * A20N  AIRBUS  A320 NEO  A320__  Y /\n") (chars "A20N")
    (chars "AIRBUS") (chars "A320 NEO") (chars "A320__") := by
  refine ⟨[32], 42, [32], [32, 32], [32, 32], [32, 32], [32, 32], chars "Y ", [10], by decide, ?_,
    by simp [Blank], by decide, by decide, by decide, by simp [Blank, chars], by decide,
    by simp [Blank, chars], ?_, by decide, ?_, by simp [chars], by simp [Blank, chars], .inr rfl⟩
  · simp [Blank]
  · refine ⟨by decide, by simp [chars], by simp [Blank, chars], by simp [Blank, chars], ?_⟩
    rintro u c d v e ⟨hc, -⟩
    have : c ∈ chars "AIRBUS" := by rw [e]; simp
    simp [chars] at this
    simp only [Blank, List.mem_cons, List.not_mem_nil, or_false] at hc
    omega
  · refine ⟨by decide, by simp [chars], by simp [Blank, chars], by simp [Blank, chars], ?_⟩
    have h : ∀ i < 7, ¬ (isSpace ((chars "A320 NEO").getD i 0) = true ∧
      isSpace ((chars "A320 NEO").getD (i + 1) 0) = true) := by decide
    rintro u c d v e ⟨hc, hd⟩
    have hl := congrArg List.length e
    rw [show (chars "A320 NEO").length = 8 by decide] at hl
    simp only [List.length_append, List.length_cons] at hl
    refine h u.length (by omega) ?_
    rw [e]
    simp only [List.getD_eq_getElem?_getD]
    simp [isSpace_iff, hc, hd]

example : readSynonym (chars "a20n") (splitLines []
    (chars "CC comment\nCD * A20N  AIRBUS  A320 NEO  A320__  Y /\n")) = .ok
    { aircraft := chars "AIRBUS A320 NEO", manufacturer := chars "AIRBUS", model := chars "A320 NEO",
      synonym := chars "A320" } := by
  refine C107_first_line (chars "a20n") [chars "CC comment\n"] [] _ _ _ _ _ case_line ?_ ?_
  · simp [SameText, SameLetter, chars]
  · rintro l hl code ⟨b, x, b', rest, e, _⟩
    obtain rfl := List.mem_singleton.1 hl
    simp [chars] at e

example : readSynonym (chars "B738") [chars "CD * A20N  AIRBUS  A320 NEO  A320__  Y\n"] =
    .error .valueError := by
  refine (C107_no_slash (chars "B738") [] [] _ ?_).trans (C107_unknown _ [] (by simp))
  intro a
  constructor
  · intro e
    have := congrArg List.getLast? e
    simp [chars] at this
  · intro e
    have := congrArg (fun l => l.dropLast.getLast?) e
    simp [chars] at this

/-- Columns are told apart only by two blanks: with a manufacturer of one letter the columns shift. -/
example : readSynonym (chars "ABCD") [chars "CD * ABCD  X  MODEL  SYN1__  Y /"] = .ok
    { aircraft := chars "X  MODEL SYN1__", manufacturer := chars "X  MODEL", model := chars "SYN1__",
      synonym := chars "Y" } := by decide +kernel

end Verif.Props
