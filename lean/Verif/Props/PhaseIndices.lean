import Verif.Spec.PhaseIndices
import Verif.Lemmas.PhaseIndex
import Mathlib.Tactic.IntervalCases

/-!
# C113: complete characterisation of `flight_phase_indices`
-/

namespace Verif.Props
open Verif Verif.Phase Verif.Spec.PhaseIndices

/-- A list of samples as a function of the index. -/
def samples (l : List ℝ) (i : ℕ) : ℝ := l.getD i 0

/-! ### Take-off -/

theorem toStart_rolls (spd : List ℝ) (k : ℕ) : ∀ s,
    (toStart spd k s (samples spd k) = s ∧ (k = 0 ∨ ¬ Rolling (samples spd) (k - 1))) ∨
    (toStart spd k s (samples spd k) < k ∧
      (∀ j, toStart spd k s (samples spd k) ≤ j → j < k → Rolling (samples spd) j) ∧
      (toStart spd k s (samples spd k) = 0 ∨
        ¬ Rolling (samples spd) (toStart spd k s (samples spd k) - 1))) := by
  induction k with
  | zero => intro s; left; exact ⟨rfl, .inl rfl⟩
  | succ k ih =>
    intro s
    unfold toStart
    simp only
    by_cases hr : Rolling (samples spd) k
    · have hr' : 5 ≤ spd.getD k 0 ∧ (30 ≤ spd.getD k 0 ∨ spd.getD k 0 ≤ samples spd (k + 1)) := hr
      rw [if_neg, if_neg]
      · right
        rcases ih k with ⟨h3, h4⟩ | ⟨h3, h4, h5⟩
        · rw [show spd.getD k 0 = samples spd k from rfl, h3]
          refine ⟨by omega, ?_, h4⟩
          intro j hj hj'
          obtain rfl : j = k := by omega
          exact hr
        · refine ⟨Nat.lt_succ_of_lt h3, ?_, h5⟩
          intro j hj hj'
          rcases Nat.lt_or_ge j k with c | c
          · exact h4 j hj c
          · obtain rfl : j = k := by omega
            exact hr
      · exact not_lt.2 hr'.1
      · rintro ⟨h1, h2⟩
        rcases hr'.2 with h | h <;> linarith
    · left
      refine ⟨?_, .inr hr⟩
      split_ifs with h1 h2
      · rfl
      · rfl
      · exfalso
        refine hr ⟨not_lt.1 h2, ?_⟩
        by_contra hc
        push Not at hc
        exact h1 ⟨hc.1, hc.2⟩

theorem rollStart_unique {spd : ℕ → ℝ} {e a a' : ℕ} (h : RollStart spd e a) (h' : RollStart spd e a') :
    a = a' := by
  rcases h with ⟨h1, h2, h3⟩ | ⟨h1, h2⟩ <;> rcases h' with ⟨k1, k2, k3⟩ | ⟨k1, k2⟩
  · by_contra hne
    rcases Nat.lt_or_gt_of_ne hne with hl | hl
    · rcases k3 with k3 | k3
      · omega
      · exact k3 (h2 _ (by omega) (by omega))
    · rcases h3 with h3 | h3
      · omega
      · exact h3 (k2 _ (by omega) (by omega))
  · exact absurd (h2 (e - 1) (by omega) (by omega)) k2
  · exact absurd (k2 (e - 1) (by omega) (by omega)) h2
  · rw [h1, k1]

theorem find_first_below {p : ℕ → Prop} [DecidablePred p] (s n b : ℕ) :
    (List.range' s n).find? (fun i => decide (p i)) = some b ↔
      s ≤ b ∧ b < s + n ∧ p b ∧ ∀ j, s ≤ j → j < b → ¬ p j := by
  constructor
  · intro h
    have h1 := List.mem_range'_1.1 (List.mem_of_find?_eq_some h)
    have h2 := List.find?_some h
    refine ⟨h1.1, h1.2, by simpa using h2, fun j hj hj' => ?_⟩
    obtain ⟨m, hm⟩ : ∃ m, b = s + m := ⟨b - s, by omega⟩
    have e : List.range' s n = List.range' s m ++ List.range' b (n - m) := by
      rw [hm, List.range'_append_1]; congr 1; omega
    rw [e, List.find?_append] at h
    rcases hf : (List.range' s m).find? (fun i => decide (p i)) with _ | x
    · rw [List.find?_eq_none] at hf
      simpa using hf j (List.mem_range'_1.2 ⟨hj, by omega⟩)
    · rw [hf] at h
      have := List.mem_range'_1.1 (List.mem_of_find?_eq_some hf)
      have hx : x = b := by simpa using h
      omega
  · rintro ⟨h1, h2, h3, h4⟩
    obtain ⟨m, hm⟩ : ∃ m, b = s + m := ⟨b - s, by omega⟩
    obtain ⟨r, hr⟩ : ∃ r, n - m = r + 1 := ⟨n - m - 1, by omega⟩
    have e : List.range' s n = List.range' s m ++ List.range' b (n - m) := by
      rw [hm, List.range'_append_1]; congr 1; omega
    rw [e, List.find?_append, hr, List.range'_succ, List.find?_cons_of_pos (by simpa using h3)]
    have : (List.range' s m).find? (fun i => decide (p i)) = none := by
      rw [List.find?_eq_none]
      intro j hj
      have := List.mem_range'_1.1 hj
      simpa using h4 j this.1 (by omega)
    rw [this]
    rfl

theorem find_last_below {p : ℕ → Prop} [DecidablePred p] (s n b : ℕ) :
    (List.range' s n).reverse.find? (fun i => decide (p i)) = some b ↔
      s ≤ b ∧ b < s + n ∧ p b ∧ ∀ j, b < j → j < s + n → ¬ p j := by
  constructor
  · intro h
    have h1 := List.mem_range'_1.1 (List.mem_reverse.1 (List.mem_of_find?_eq_some h))
    have h2 := List.find?_some h
    refine ⟨h1.1, h1.2, by simpa using h2, fun j hj hj' => ?_⟩
    obtain ⟨m, hm⟩ : ∃ m, b + 1 = s + m := ⟨b + 1 - s, by omega⟩
    have e : List.range' s n = List.range' s m ++ List.range' (b + 1) (n - m) := by
      rw [hm, List.range'_append_1]; congr 1; omega
    rw [e, List.reverse_append, List.find?_append] at h
    rcases hf : (List.range' (b + 1) (n - m)).reverse.find? (fun i => decide (p i)) with _ | x
    · rw [List.find?_eq_none] at hf
      simpa using hf j (List.mem_reverse.2 (List.mem_range'_1.2 ⟨hj, by omega⟩))
    · rw [hf] at h
      have := List.mem_range'_1.1 (List.mem_reverse.1 (List.mem_of_find?_eq_some hf))
      have hx : x = b := by simpa using h
      omega
  · rintro ⟨h1, h2, h3, h4⟩
    obtain ⟨m, hm⟩ : ∃ m, b = s + m := ⟨b - s, by omega⟩
    have e : List.range' s n = List.range' s (m + 1) ++ List.range' (b + 1) (n - (m + 1)) := by
      rw [hm, Nat.add_assoc, List.range'_append_1]; congr 1; omega
    rw [e, List.reverse_append, List.find?_append, List.range'_concat, List.reverse_append]
    have : (List.range' (b + 1) (n - (m + 1))).reverse.find? (fun i => decide (p i)) = none := by
      rw [List.find?_eq_none]
      intro j hj
      have := List.mem_range'_1.1 (List.mem_reverse.1 hj)
      simpa using h4 j (by omega) (by omega)
    rw [this]
    simp only [List.reverse_cons, List.reverse_nil, List.nil_append, List.singleton_append,
      Option.none_or, one_mul]
    rw [← hm, List.find?_cons_of_pos (by simpa using h3)]

theorem getToIc_iff (ts alt spd : List ℝ) (a b c : ℕ) :
    getToIc ts alt spd = some (a, b, c) ↔
      TakeOff alt.length (samples ts) (samples alt) (samples spd) a b c := by
  classical
  have hfun : (fun i => @decide (10 < |alt.getD i 0 - alt.getD (i - 1) 0|) (Classical.propDecidable _)) =
      fun i => decide (10 < |samples alt i - samples alt (i - 1)|) := by
    funext i; rw [decide_eq_decide]; rfl
  have hstart : ∀ e, 0 < e → RollStart (samples spd) e (toStart spd e 0 (samples spd e)) := by
    intro e he
    rcases toStart_rolls spd e 0 with ⟨h1, h2⟩ | h
    · exact .inr ⟨h1, h2.resolve_left (by omega)⟩
    · exact .inl h
  constructor
  · intro ht
    unfold getToIc at ht
    simp only at ht
    rw [hfun] at ht
    generalize he : lowPrefix alt 0 0 = e at ht
    rw [show spd.getD e 0 = samples spd e from rfl] at ht
    have hst := hstart e
    generalize toStart spd e 0 (samples spd e) = s at ht hst
    split_ifs at ht with c1 c2 c3 c4
    obtain ⟨rfl, hq⟩ := Prod.mk.inj (Option.some.inj ht)
    obtain ⟨hb, rfl⟩ := Prod.mk.inj hq
    rw [hb] at c4
    push Not at c1 c2 c3 c4
    rcases lowPrefix_spec alt 0 0 with ⟨q1, -⟩ | ⟨k, q1, q2, q3, q4⟩
    · rw [he] at q1; omega
    rw [he, zero_add] at q1
    subst q1
    rcases hf : ((List.range' (s + 1) (e - (s + 1))).find?
      fun i => decide (10 < |samples alt i - samples alt (i - 1)|)) with _ | x
    · rw [hf] at hb
      have : b = s := hb.symm
      omega
    · rw [hf] at hb
      obtain rfl : x = b := hb
      obtain ⟨f1, f2, f3, f4⟩ := (find_first_below _ _ _).1 hf
      refine ⟨e, rfl, by omega, fun j hj => q3 j (by omega), ?_, hst (by omega), c1, by omega, c3,
        by omega, by omega, f3, fun j hj hj' => not_lt.1 (f4 j hj hj')⟩
      rcases q4 with q4 | q4
      · left; exact q4
      · right; exact q4
  · rintro ⟨e, rfl, h1, h2, h3, h4, h5, h6, h7, h8, h9, h10, h11⟩
    have he : lowPrefix alt 0 0 = e := by
      rcases lowPrefix_spec alt 0 0 with ⟨-, q⟩ | ⟨k, q1, q2, q3, q4⟩
      · exfalso
        rcases q with q | q
        · rw [q] at h1; simp at h1
        · exact absurd (h2 0 (by omega)) (not_lt.2 q)
      · rw [q1, zero_add]
        by_contra hne
        rcases Nat.lt_or_gt_of_ne hne with hl | hl
        · rcases q4 with q4 | q4
          · omega
          · exact absurd (h2 (k + 1) (by omega)) (not_lt.2 q4)
        · rcases h3 with h3 | h3
          · omega
          · exact absurd (q3 (e + 1) (by omega)) (not_lt.2 h3)
    have hs : toStart spd e 0 (samples spd e) = a := rollStart_unique (hstart e (by omega)) h4
    have hf : ((List.range' (a + 1) (e - (a + 1))).find?
        fun i => decide (10 < |samples alt i - samples alt (i - 1)|)) = some b :=
      (find_first_below _ _ _).2 ⟨by omega, by omega, h10, fun j hj hj' => not_lt.2 (h11 j (by omega) hj')⟩
    unfold getToIc
    simp only
    rw [hfun, he, show spd.getD e 0 = samples spd e from rfl, hs, hf]
    rw [if_neg (show ¬ 300 < ts.getD e 0 - ts.getD a 0 from not_lt.2 h5), if_neg (by omega),
      if_neg (show ¬ alt.getD e 0 < 200 from not_lt.2 h7), Option.getD_some, if_neg (by omega)]

/-! ### Landing -/

theorem ldEnd_slows (spd : List ℝ) (k : ℕ) : ∀ i, 0 < i →
    i - 1 ≤ ldEnd spd k i (i - 1) (samples spd (i - 1)) ∧
    ldEnd spd k i (i - 1) (samples spd (i - 1)) < i + k ∧
    (∀ j, i ≤ j → j ≤ ldEnd spd k i (i - 1) (samples spd (i - 1)) → Slowing (samples spd) j) ∧
    (ldEnd spd k i (i - 1) (samples spd (i - 1)) + 1 = i + k ∨
      ¬ Slowing (samples spd) (ldEnd spd k i (i - 1) (samples spd (i - 1)) + 1)) := by
  induction k with
  | zero =>
    intro i hi
    refine ⟨le_rfl, ?_, fun j h1 h2 => ?_, .inl ?_⟩
    · rw [ldEnd]; omega
    · rw [ldEnd] at h2; omega
    · rw [ldEnd]; omega
  | succ k ih =>
    intro i hi
    unfold ldEnd
    simp only
    by_cases hr : Slowing (samples spd) i
    · have hr' : 30 ≤ spd.getD i 0 ∧ (50 < spd.getD i 0 ∨ spd.getD i 0 < samples spd (i - 1)) := hr
      rw [if_neg, if_neg]
      · obtain ⟨h1, h2, h3, h4⟩ := ih (i + 1) (by omega)
        rw [Nat.add_sub_cancel] at h1 h2 h3 h4
        rw [show spd.getD i 0 = samples spd i from rfl]
        refine ⟨by omega, by omega, ?_, ?_⟩
        · intro j hj hj'
          rcases Nat.lt_or_ge i j with c | c
          · exact h3 j c hj'
          · obtain rfl : j = i := by omega
            exact hr
        · rcases h4 with h4 | h4
          · left; omega
          · right; exact h4
      · exact not_lt.2 hr'.1
      · rintro ⟨h1, h2⟩
        rcases hr'.2 with h | h <;> linarith
    · have hstop : (if spd.getD i 0 ≤ 50 ∧ samples spd (i - 1) ≤ spd.getD i 0 then i - 1
          else if spd.getD i 0 < 30 then i - 1
          else ldEnd spd k (i + 1) i (spd.getD i 0)) = i - 1 := by
        split_ifs with h1 h2
        · rfl
        · rfl
        · exfalso
          refine hr ⟨not_lt.1 h2, ?_⟩
          by_contra hc
          push Not at hc
          exact h1 ⟨hc.1, hc.2⟩
      rw [hstop]
      refine ⟨le_rfl, by omega, fun j h1 h2 => by omega, .inr ?_⟩
      rw [Nat.sub_add_cancel hi]
      exact hr

theorem finalLow_unique {n : ℕ} {alt : ℕ → ℝ} {a a' : ℕ} (h : FinalLow n alt a) (h' : FinalLow n alt a') :
    a = a' := by
  rcases h with ⟨h1, h2, h3⟩ | ⟨h1, h2⟩ <;> rcases h' with ⟨k1, k2, k3⟩ | ⟨k1, k2⟩
  · by_contra hne
    rcases Nat.lt_or_gt_of_ne hne with hl | hl
    · rcases k3 with k3 | k3
      · omega
      · exact absurd (h1 (a' - 1) (by omega) (by omega)) (not_lt.2 k3)
    · rcases h3 with h3 | h3
      · omega
      · exact absurd (k1 (a - 1) (by omega) (by omega)) (not_lt.2 h3)
  · exact absurd (h1 (n - 1) (by omega) (by omega)) (not_lt.2 k1)
  · exact absurd (k1 (n - 1) (by omega) (by omega)) (not_lt.2 h1)
  · rw [h2, k2]

theorem getFaLd_iff (alt spd : List ℝ) (hne : alt ≠ []) (a b c : ℕ) :
    getFaLd alt spd = some (a, b, c) ↔ Landing alt.length (samples alt) (samples spd) a b c := by
  classical
  have hn : 0 < alt.length := List.length_pos_of_ne_nil hne
  have hfun : (fun i => @decide (10 < |alt.getD i 0 - alt.getD (i + 1) 0|) (Classical.propDecidable _)) =
      fun i => decide (10 < |samples alt i - samples alt (i + 1)|) := by
    funext i; rw [decide_eq_decide]; rfl
  have hlow : FinalLow alt.length (samples alt) (lowSuffix alt alt.length 0) ∧
      lowSuffix alt alt.length 0 < alt.length := by
    rcases lowSuffix_spec alt alt.length 0 with ⟨p1, p2⟩ | ⟨p1, p2, p3⟩
    · exact ⟨.inr ⟨p2.resolve_left (by omega), p1⟩, by omega⟩
    · exact ⟨.inl ⟨p2, p1, p3⟩, p1⟩
  have hend : ∀ s, s < alt.length →
      (samples spd s ≤ 50 ∧ ldEnd spd (alt.length - s) s 0 (samples spd s) = 0) ∨
      (50 < samples spd s ∧ s ≤ ldEnd spd (alt.length - s) s 0 (samples spd s) ∧
        ldEnd spd (alt.length - s) s 0 (samples spd s) < alt.length ∧
        (∀ j, s < j → j ≤ ldEnd spd (alt.length - s) s 0 (samples spd s) → Slowing (samples spd) j) ∧
        (ldEnd spd (alt.length - s) s 0 (samples spd s) + 1 = alt.length ∨
          ¬ Slowing (samples spd) (ldEnd spd (alt.length - s) s 0 (samples spd s) + 1))) := by
    intro s hs
    obtain ⟨k, hk⟩ : ∃ k, alt.length - s = k + 1 := ⟨alt.length - s - 1, by omega⟩
    rw [hk]
    unfold ldEnd
    simp only
    by_cases h : samples spd s ≤ 50
    · left
      rw [if_pos ⟨h, le_rfl⟩]
      exact ⟨h, rfl⟩
    · right
      push Not at h
      rw [if_neg (fun hh => absurd hh.1 (not_le.2 h)),
        if_neg (show ¬ spd.getD s 0 < 30 from not_lt.2 (show (30 : ℝ) ≤ samples spd s by linarith))]
      obtain ⟨h1, h2, h3, h4⟩ := ldEnd_slows spd k (s + 1) (by omega)
      rw [Nat.add_sub_cancel] at h1 h2 h3 h4
      rw [show spd.getD s 0 = samples spd s from rfl]
      refine ⟨h, h1, by omega, fun j hj hj' => h3 j hj hj', ?_⟩
      rcases h4 with h4 | h4
      · left; omega
      · right; exact h4
  constructor
  · intro ht
    unfold getFaLd at ht
    simp only at ht
    rw [hfun] at ht
    obtain ⟨hl1, hl2⟩ := hlow
    generalize lowSuffix alt alt.length 0 = s at ht hl1 hl2
    rw [show spd.getD s 0 = samples spd s from rfl] at ht
    have hen := hend s hl2
    generalize ldEnd spd (alt.length - s) s 0 (samples spd s) = e at ht hen
    split_ifs at ht with c1 c2
    obtain ⟨rfl, hq⟩ := Prod.mk.inj (Option.some.inj ht)
    obtain ⟨hb, rfl⟩ := Prod.mk.inj hq
    rw [hb] at c2
    push Not at c1 c2
    rcases hf : ((List.range' s (e - 1 - s)).reverse.find?
      fun i => decide (10 < |samples alt i - samples alt (i + 1)|)) with _ | x
    · rw [hf] at hb
      have : b = e := hb.symm
      omega
    · rw [hf] at hb
      obtain rfl : x = b := hb
      obtain ⟨f1, f2, f3, f4⟩ := (find_last_below _ _ _).1 hf
      rcases hen with ⟨-, hen⟩ | ⟨e1, e2, e3, e4, e5⟩
      · omega
      refine ⟨e, rfl, hl1, c1, e1, by omega, fun j hj hj' => e4 j hj (by omega), e5, by omega, by omega, f3,
        fun j hj hj' => not_lt.1 (f4 j hj (by omega))⟩
  · rintro ⟨e, rfl, h1, h2, h3, h4, h5, h6, h7, h8, h9, h10⟩
    have hs : lowSuffix alt alt.length 0 = a := finalLow_unique hlow.1 h1
    have he : ldEnd spd (alt.length - a) a 0 (samples spd a) = e := by
      rcases hend a (by omega) with ⟨q, -⟩ | ⟨-, q1, q2, q3, q4⟩
      · exact absurd h3 (not_lt.2 q)
      · by_contra hne'
        rcases Nat.lt_or_gt_of_ne hne' with hl | hl
        · rcases q4 with q4 | q4
          · omega
          · exact q4 (h5 _ (by omega) (by omega))
        · rcases h6 with h6 | h6
          · omega
          · exact h6 (q3 _ (by omega) (by omega))
    have hf : ((List.range' a (e - 1 - a)).reverse.find?
        fun i => decide (10 < |samples alt i - samples alt (i + 1)|)) = some b :=
      (find_last_below _ _ _).2 ⟨by omega, by omega, h9, fun j hj hj' => not_lt.2 (h10 j hj (by omega))⟩
    unfold getFaLd
    simp only
    rw [hfun, hs, show spd.getD a 0 = samples spd a from rfl, he,
      if_neg (show ¬ alt.getD a 0 < 100 from not_lt.2 h2), hf]
    rw [Option.getD_some, if_neg (by omega)]

/-- A take-off: roll to lift-off at the eighth sample, then a climb through 1500 ft. -/
example : TakeOff 14 (fun i => 5 * i) (samples [0, 0, 0, 0, 0, 0, 0, 50, 150, 300, 500, 800, 1200, 1600])
    (samples [10, 30, 60, 90, 120, 140, 150, 160, 160, 160, 160, 160, 160, 160]) 0 7 13 := by
  refine ⟨12, rfl, by norm_num, ?_, .inr (by norm_num [samples]), .inl ⟨by norm_num, ?_, .inl rfl⟩,
    by norm_num, by norm_num, by norm_num [samples], by norm_num, by norm_num, by norm_num [samples], ?_⟩
  · intro j hj
    interval_cases j <;> norm_num [samples]
  · intro j hj hj'
    interval_cases j <;> norm_num [samples, Rolling]
  · intro j hj hj'
    interval_cases j <;> norm_num [samples]

/-- A landing: the same samples in reverse. -/
example : Landing 14 (samples [1600, 1200, 800, 500, 300, 150, 50, 0, 0, 0, 0, 0, 0, 0])
    (samples [160, 160, 160, 160, 160, 160, 160, 150, 140, 120, 90, 60, 30, 10]) 1 6 13 := by
  refine ⟨12, rfl, .inl ⟨?_, by norm_num, .inr (by norm_num [samples])⟩, by norm_num [samples],
    by norm_num [samples], by norm_num, ?_, .inr (by norm_num [samples, Slowing]), by norm_num, by norm_num,
    by norm_num [samples], ?_⟩
  · intro j hj hj'
    interval_cases j <;> norm_num [samples]
  · intro j hj hj'
    interval_cases j <;> norm_num [samples, Slowing]
  · intro j hj hj'
    have : j < 11 := by omega
    interval_cases j <;> norm_num [samples]

/-! ### Labels -/

/-- `i` is the first (last) sample with a label. -/
def IsFirst (labels : List Label) (l : Label) (i : ℕ) : Prop :=
  labels[i]? = some l ∧ ∀ j, j < i → labels[j]? ≠ some l
@[inherit_doc IsFirst] def IsLast (labels : List Label) (l : Label) (i : ℕ) : Prop :=
  labels[i]? = some l ∧ ∀ j, i < j → labels[j]? ≠ some l

theorem mem_indices {l : Label} {labels : List Label} {i : ℕ} :
    i ∈ indicesOf l labels ↔ labels[i]? = some l := by
  unfold indicesOf
  simp only [List.mem_filter, List.mem_range, decide_eq_true_iff]
  constructor
  · exact fun h => h.2
  · intro h
    obtain ⟨h', -⟩ := List.getElem?_eq_some_iff.1 h
    exact ⟨h', h⟩

theorem indices_sorted (l : Label) (labels : List Label) : (indicesOf l labels).Pairwise (· < ·) :=
  List.Pairwise.sublist List.filter_sublist List.pairwise_lt_range

theorem indices_first {l : Label} {labels : List Label} (h : l ∈ labels) :
    IsFirst labels l ((indicesOf l labels).headD 0) := by
  obtain ⟨i, hi⟩ := List.mem_iff_getElem?.1 h
  have hm := mem_indices.2 hi
  have hs := indices_sorted l labels
  have hall : ∀ j, j ∈ indicesOf l labels ↔ labels[j]? = some l := fun j => mem_indices
  generalize indicesOf l labels = L at hm hs hall
  cases L with
  | nil => cases hm
  | cons a L =>
    refine ⟨(hall a).1 (List.mem_cons_self ..), fun j hj hc => ?_⟩
    rcases List.mem_cons.1 ((hall j).2 hc) with rfl | h'
    · exact absurd hj (lt_irrefl _)
    · have := (List.pairwise_cons.1 hs).1 j h'
      simp only [List.headD_cons] at hj
      omega

theorem indices_last {l : Label} {labels : List Label} (h : l ∈ labels) :
    IsLast labels l ((indicesOf l labels).getLastD 0) := by
  obtain ⟨i, hi⟩ := List.mem_iff_getElem?.1 h
  have hm := mem_indices.2 hi
  have hs := indices_sorted l labels
  have hall : ∀ j, j ∈ indicesOf l labels ↔ labels[j]? = some l := fun j => mem_indices
  generalize indicesOf l labels = L at hm hs hall
  have hne : L ≠ [] := List.ne_nil_of_mem hm
  obtain ⟨L', a, rfl⟩ : ∃ L' a, L = L' ++ [a] := ⟨_, _, (List.dropLast_append_getLast hne).symm⟩
  rw [List.getLastD_concat]
  refine ⟨(hall a).1 (by simp), fun j hj hc => ?_⟩
  have hj' := (hall j).2 hc
  rcases List.mem_append.1 hj' with h' | h'
  · have := (List.pairwise_append.1 hs).2.2 j h' a (by simp)
    omega
  · have : j = a := by simpa using h'
    omega

/-- The result for a detected label: the sample as described if the label occurs, otherwise `None`. -/
def Found (labels : List Label) (l : Label) (P : List Label → Label → ℕ → Prop) (r : Option ℕ) : Prop :=
  (l ∈ labels ∧ ∃ i, r = some i ∧ P labels l i) ∨ (l ∉ labels ∧ r = none)

/-- **C113.** Everything `flight_phase_indices` reports, for an accepted trajectory:
* TO, IC and CL are the parts of the take-off if there is one; otherwise TO and IC are `None` and CL is
  the first sample labelled climb;
* CR is the last sample labelled climb, DE the first labelled descent;
* FA, LD and END are the parts of the landing if there is one; otherwise FA is the last sample labelled
  descent, LD is `None` and END is the number of samples. -/
theorem C113_indices (ts alt spd roc : List ℝ) (hne : ts ≠ [])
    (h1 : alt.length = ts.length) (h2 : spd.length = ts.length) (h3 : roc.length = ts.length) :
    ∃ r o labels, flightPhaseIndices ts alt spd roc = .ok r ∧
      setTrajectory {} ts (alt.map .val) (spd.map .val) (roc.map .val) = (.ok (), o) ∧
      phaselabel o = .ok labels ∧
      (∀ a b c, TakeOff ts.length (samples ts) (samples alt) (samples spd) a b c →
        r.TO = some a ∧ r.IC = some b ∧ r.CL = some c) ∧
      ((∀ a b c, ¬ TakeOff ts.length (samples ts) (samples alt) (samples spd) a b c) →
        r.TO = none ∧ r.IC = none ∧ Found labels .CL IsFirst r.CL) ∧
      Found labels .CL IsLast r.CR ∧ Found labels .DE IsFirst r.DE ∧
      (∀ a b c, Landing ts.length (samples alt) (samples spd) a b c →
        r.FA = some a ∧ r.LD = some b ∧ r.END = c) ∧
      ((∀ a b c, ¬ Landing ts.length (samples alt) (samples spd) a b c) →
        Found labels .DE IsLast r.FA ∧ r.LD = none ∧ r.END = ts.length) := by
  obtain ⟨t0, l, rfl⟩ : ∃ t0 l, ts = t0 :: l := by
    cases ts with
    | nil => exact absurd rfl hne
    | cons t0 l => exact ⟨t0, l, rfl⟩
  have hset : setTrajectory {} (t0 :: l) (alt.map .val) (spd.map .val) (roc.map .val) =
      (.ok (), ⟨some ((t0 :: l).map (· - t0)), some (alt.map .val), some (spd.map .val),
        some (roc.map .val), some (t0 :: l).length⟩) := by
    unfold setTrajectory
    simp only [List.length_map]
    rw [if_pos ⟨h1.symm, by rw [h1, h2], by rw [h2, h3]⟩]
  obtain ⟨hl, -⟩ := phaselabel_eq 60 hset
  generalize (List.range _).foldl _ _ = labels at hl
  have halt : alt ≠ [] := by intro h; rw [h] at h1; simp at h1
  have tsh : ∀ j, j < (t0 :: l).length →
      samples ((t0 :: l).map (· - t0)) j = samples (t0 :: l) j - t0 := by
    intro j hj
    unfold samples
    rw [List.getD_eq_getElem?_getD, List.getElem?_map, List.getD_eq_getElem?_getD,
      List.getElem?_eq_getElem hj]
    rfl
  have hT : ∀ a b c, getToIc ((t0 :: l).map (· - t0)) alt spd = some (a, b, c) ↔
      TakeOff (t0 :: l).length (samples (t0 :: l)) (samples alt) (samples spd) a b c := by
    intro a b c
    rw [getToIc_iff, h1]
    unfold TakeOff
    refine exists_congr fun e => ?_
    constructor
    · rintro ⟨k1, k2, k3, k4, k5, k6, k7, k8⟩
      rw [tsh e (by omega), tsh a (by omega)] at k6
      exact ⟨k1, k2, k3, k4, k5, by linarith, k7, k8⟩
    · rintro ⟨k1, k2, k3, k4, k5, k6, k7, k8⟩
      refine ⟨k1, k2, k3, k4, k5, ?_, k7, k8⟩
      rw [tsh e (by omega), tsh a (by omega)]
      linarith
  have hL : ∀ a b c, getFaLd alt spd = some (a, b, c) ↔
      Landing (t0 :: l).length (samples alt) (samples spd) a b c := by
    intro a b c
    rw [getFaLd_iff alt spd halt, h1]
  have hcl : Found labels .CL IsFirst ((getCl labels).map (·.1)) ∧
      Found labels .CL IsLast ((getCl labels).map (·.2)) := by
    unfold getCl
    by_cases h : Label.CL ∈ labels
    · rw [if_pos h]
      exact ⟨.inl ⟨h, _, rfl, indices_first h⟩, .inl ⟨h, _, rfl, indices_last h⟩⟩
    · rw [if_neg h]
      exact ⟨.inr ⟨h, rfl⟩, .inr ⟨h, rfl⟩⟩
  have hde : Found labels .DE IsFirst ((getDe labels).map (·.1)) ∧
      Found labels .DE IsLast ((getDe labels).map (·.2.1)) := by
    unfold getDe
    by_cases h : Label.DE ∈ labels
    · rw [if_pos h]
      exact ⟨.inl ⟨h, _, rfl, indices_first h⟩, .inl ⟨h, _, rfl, indices_last h⟩⟩
    · rw [if_neg h]
      exact ⟨.inr ⟨h, rfl⟩, .inr ⟨h, rfl⟩⟩
  unfold flightPhaseIndices
  rw [hset]
  simp only [bind, Except.bind, pure, Except.pure, hl, Option.getD_some]
  refine ⟨_, _, labels, rfl, rfl, hl, ?_, ?_, hcl.2, hde.1, ?_, ?_⟩
  · intro a b c h
    rw [(hT a b c).2 h]
    exact ⟨rfl, rfl, rfl⟩
  · intro h
    rcases hg : getToIc ((t0 :: l).map (· - t0)) alt spd with _ | ⟨a, b, c⟩
    · exact ⟨rfl, rfl, hcl.1⟩
    · exact absurd ((hT a b c).1 hg) (h a b c)
  · intro a b c h
    rw [(hL a b c).2 h]
    exact ⟨rfl, rfl, rfl⟩
  · intro h
    rcases hg : getFaLd alt spd with _ | ⟨a, b, c⟩
    · exact ⟨hde.2, rfl, rfl⟩
    · exact absurd ((hL a b c).1 hg) (h a b c)

/-- **C113 (descent).** `_get_de` reports the first and last sample labelled descent, and a continuous
descent exactly if no sample from the first up to, not including, the last is labelled level. -/
theorem C113_descent (labels : List Label) :
    (Label.DE ∉ labels → getDe labels = none) ∧
    (Label.DE ∈ labels → ∃ s e cda, getDe labels = some (s, e, cda) ∧ IsFirst labels .DE s ∧
      IsLast labels .DE e ∧ (cda = true ↔ ∀ j, s ≤ j → j < e → labels[j]? ≠ some .LVL)) := by
  refine ⟨fun h => if_neg h, fun h => ?_⟩
  refine ⟨_, _, _, if_pos h, indices_first h, indices_last h, ?_⟩
  have hm : Label.LVL ∈ (labels.take ((indicesOf .DE labels).getLastD 0)).drop
      ((indicesOf .DE labels).headD 0) ↔ ∃ j, (indicesOf .DE labels).headD 0 ≤ j ∧
        j < (indicesOf .DE labels).getLastD 0 ∧ labels[j]? = some .LVL := by
    rw [List.mem_iff_getElem?]
    constructor
    · rintro ⟨i, hi⟩
      rw [List.getElem?_drop, List.getElem?_take] at hi
      split_ifs at hi with hlt
      exact ⟨_, Nat.le_add_right _ _, hlt, hi⟩
    · rintro ⟨j, hj1, hj2, hj3⟩
      refine ⟨j - (indicesOf .DE labels).headD 0, ?_⟩
      rw [List.getElem?_drop, Nat.add_sub_cancel' hj1, List.getElem?_take, if_pos hj2, hj3]
  rw [Bool.not_eq_true', decide_eq_false_iff_not, hm]
  push Not
  rfl

/-- **C113 (cruise).** `_get_cr` reports the samples from the last climb label to the first descent
label if they are at least 200 apart, and otherwise nothing. -/
theorem C113_cruise (labels : List Label) (s e : ℕ) :
    getCr labels = some (s, e) ↔ IsLast labels .CL s ∧ IsFirst labels .DE e ∧ s + 200 ≤ e := by
  have hu1 : ∀ i j, IsFirst labels .DE i → IsFirst labels .DE j → i = j := by
    intro i j hi hj
    by_contra h
    rcases Nat.lt_or_gt_of_ne h with h | h
    · exact hj.2 _ h hi.1
    · exact hi.2 _ h hj.1
  have hu2 : ∀ i j, IsLast labels .CL i → IsLast labels .CL j → i = j := by
    intro i j hi hj
    by_contra h
    rcases Nat.lt_or_gt_of_ne h with h | h
    · exact hi.2 _ h hj.1
    · exact hj.2 _ h hi.1
  unfold getCr getCl getDe
  by_cases h1 : Label.CL ∈ labels
  · by_cases h2 : Label.DE ∈ labels
    · rw [if_pos h1, if_pos h2]
      simp only
      have i1 := indices_last h1
      have i2 := indices_first h2
      generalize (indicesOf .CL labels).getLastD 0 = x at i1 ⊢
      generalize (indicesOf .DE labels).headD 0 = y at i2 ⊢
      split_ifs with h
      · constructor
        · intro hh; cases hh
        · rintro ⟨k1, k2, k3⟩
          have := hu2 _ _ i1 k1
          have := hu1 _ _ i2 k2
          omega
      · constructor
        · intro hh
          obtain ⟨rfl, rfl⟩ := Prod.mk.inj (Option.some.inj hh)
          exact ⟨i1, i2, by omega⟩
        · rintro ⟨k1, k2, k3⟩
          rw [hu2 _ _ i1 k1, hu1 _ _ i2 k2]
    · rw [if_pos h1, if_neg h2]
      simp only
      constructor
      · intro hh; cases hh
      · rintro ⟨-, k2, -⟩
        exact absurd (List.mem_iff_getElem?.2 ⟨_, k2.1⟩) h2
  · rw [if_neg h1]
    simp only
    constructor
    · intro hh; cases hh
    · rintro ⟨k1, -, -⟩
      exact absurd (List.mem_iff_getElem?.2 ⟨_, k1.1⟩) h1

end Verif.Props
