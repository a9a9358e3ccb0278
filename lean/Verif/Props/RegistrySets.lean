import Verif.Props.Registry

/-!
# C83: a character set that begins with a closing bracket
-/

namespace Verif.Props
open Verif Verif.Tables Verif.Registry Verif.Spec
open Verif.Data (shipped)

theorem splitSet_bracket {neg : Bool} {body post : Str} (h2 : 93 ∉ body) :
    splitSet ((if neg then [33] else []) ++ 93 :: body ++ 93 :: post) =
      some (neg, 93 :: body, post) := by
  have all : ∀ x ∈ body, decide (x ≠ 93) = true := by
    intro x hx
    simp only [ne_eq, decide_eq_true_eq]
    rintro rfl
    exact h2 hx
  have tk : (body ++ 93 :: post).takeWhile (· ≠ 93) = body := by
    rw [List.takeWhile_append_of_pos all]
    simp
  have dr : (body ++ 93 :: post).dropWhile (· ≠ 93) = 93 :: post := by
    rw [List.dropWhile_append_of_pos all]
    simp
  simp only [ne_eq, decide_not] at tk dr
  cases neg <;> simp [splitSet, tk, dr]

/-- A pattern with one set that begins with a closing bracket. -/
theorem fnmatch_bracket {neg : Bool} {pre body post : Str}
    (hp : ∀ c ∈ pre, c ≠ 42 ∧ c ≠ 63 ∧ c ≠ 91) (hq : ∀ c ∈ post, c ≠ 42 ∧ c ≠ 63 ∧ c ≠ 91)
    (h2 : 93 ∉ body) (s : Str) :
    fnmatch (pre ++ 91 :: ((if neg then [33] else []) ++ 93 :: body ++ 93 :: post)) s = true ↔
      ∃ d, s = pre ++ d :: post ∧ fits (.set neg (ranges (93 :: body))) d = true := by
  unfold fnmatch
  rw [List.length_append, pieces_lit hp, List.length_cons, pieces, if_neg (by decide),
    if_neg (by decide), if_pos rfl, splitSet_bracket h2, match_lits]
  simp only
  rw [pieces_plain hq (by simp; omega)]
  constructor
  · rintro ⟨t, rfl, h⟩
    cases t with
    | nil => simp [matchPieces] at h
    | cons d t =>
      simp only [matchPieces, Bool.and_eq_true] at h
      have := (match_lits post [] t).1 (by simpa using h.2)
      obtain ⟨r, rfl, hr⟩ := this
      obtain rfl : r = [] := by simpa [matchPieces] using hr
      exact ⟨d, by simp, h.1⟩
  · rintro ⟨d, rfl, h⟩
    refine ⟨d :: post, rfl, ?_⟩
    simp only [matchPieces, Bool.and_eq_true]
    refine ⟨h, ?_⟩
    have := (match_lits post [] post).2 ⟨[], by simp, by simp [matchPieces]⟩
    simpa using this

/-- **C83, a closing bracket in a set.** Directly after `[` or `[!` a `]` does not close the set but
belongs to it, alone, with other characters, or as the beginning of a range. -/
theorem C83_bracket_first (db : DB) {pre body post : Str} {b : ℕ} (hp : PlainText pre)
    (hq : PlainText post) (hb : 45 ∉ body ∧ 93 ∉ body) (hl : loC b = b ∧ b ≠ 93) :
    FirstOf db (pre ++ [91, 93] ++ body ++ [93] ++ post)
      (fun s => ∃ d, (d = 93 ∨ d ∈ lower body) ∧ s = lower pre ++ [d] ++ lower post) ∧
    FirstOf db (pre ++ [91, 33, 93] ++ body ++ [93] ++ post)
      (fun s => ∃ d, d ≠ 93 ∧ d ∉ lower body ∧ s = lower pre ++ [d] ++ lower post) ∧
    FirstOf db (pre ++ [91, 93, 45, b, 93] ++ post)
      (fun s => ∃ d, 93 ≤ d ∧ d ≤ b ∧ s = lower pre ++ [d] ++ lower post) := by
  have b2 := lower_notin (k := 45) (by decide) hb.1
  have b2' : 45 ∉ 93 :: lower body := by simp [b2]
  have b3 : 93 ∉ lower body := by
    intro hc
    obtain ⟨d, hd, e⟩ := List.mem_map.1 hc
    unfold loC at e
    split_ifs at e
    · omega
    · exact hb.2 (e ▸ hd)
  have low : ∀ a b : Str, lower (a ++ b) = lower a ++ lower b := fun a b => List.map_append
  refine ⟨?_, ?_, ?_⟩
  · refine firstOf (by simp) fun s => ?_
    have e : lower (pre ++ [91, 93] ++ body ++ [93] ++ post) = lower pre ++
        91 :: ((if false then [33] else []) ++ 93 :: lower body ++ 93 :: lower post) := by
      simp only [low]
      simp [lower, loC]
    rw [e, fnmatch_bracket (lower_plain hp) (lower_plain hq) b3]
    simp only [fits_set false _ _ b2', iff_true, List.mem_cons]
    constructor
    · rintro ⟨d, rfl, h⟩; exact ⟨d, h, by simp⟩
    · rintro ⟨d, h, rfl⟩; exact ⟨d, by simp, h⟩
  · refine firstOf (by simp) fun s => ?_
    have e : lower (pre ++ [91, 33, 93] ++ body ++ [93] ++ post) = lower pre ++
        91 :: ((if true then [33] else []) ++ 93 :: lower body ++ 93 :: lower post) := by
      simp only [low]
      simp [lower, loC]
    rw [e, fnmatch_bracket (lower_plain hp) (lower_plain hq) b3]
    simp only [fits_set true _ _ b2', List.mem_cons]
    constructor
    · rintro ⟨d, rfl, h⟩
      have h : ¬ (d = 93 ∨ d ∈ lower body) := by simpa using h
      exact ⟨d, fun h1 => h (.inl h1), fun h1 => h (.inr h1), by simp⟩
    · rintro ⟨d, h1, h2, rfl⟩; exact ⟨d, by simp, by simp [h1, h2]⟩
  · refine firstOf (by simp) fun s => ?_
    have e : lower (pre ++ [91, 93, 45, b, 93] ++ post) = lower pre ++
        91 :: ((if false then [33] else []) ++ 93 :: [45, b] ++ 93 :: lower post) := by
      simp only [low]
      simp [lower, hl.1]
      simp [loC]
    rw [e, fnmatch_bracket (lower_plain hp) (lower_plain hq) (by simp [hl.2.symm])]
    simp only [fits_range false, iff_true]
    constructor
    · rintro ⟨d, rfl, h⟩; exact ⟨d, h.1, h.2, by simp⟩
    · rintro ⟨d, h1, h2, rfl⟩; exact ⟨d, by simp, h1, h2⟩

/-- `[]-b]77w` finds the shipped file `b77w`. -/
example : ((aircraft shipped [91, 93, 45, 98, 93, 55, 55, 119] false).map (·.mtow)).toOption =
    ((aircraft shipped [98, 55, 55, 119] false).map (·.mtow)).toOption ∧
    ((aircraft shipped [98, 55, 55, 119] false).map (·.mtow)).toOption ≠ none := by
  decide +kernel

end Verif.Props
