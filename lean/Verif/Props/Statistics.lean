import Verif.Model.Statistics
import Mathlib.Tactic.Linarith

/-!
# C76, C100: fitting distributions
-/

namespace Verif.Props
open Verif Verif.Statistics Verif.Tables

/-- A percentile lies between two values of the data. -/
theorem percentile_between {d : List ℝ} {q p : ℝ} (hq : 0 ≤ q) (hq' : q ≤ 100)
    (h : percentile d q = .ok p) : (∃ y ∈ d, y ≤ p) ∧ ∃ z ∈ d, p ≤ z := by
  unfold percentile at h
  split_ifs at h with hd
  simp only [Except.ok.injEq] at h
  subst h
  set s := d.mergeSort fun a b => decide (a ≤ b) with hs
  have hperm : s.Perm d := List.mergeSort_perm d _
  have hlen : s.length = d.length := hperm.length_eq
  have hpos : 0 < d.length := List.length_pos_of_ne_nil hd
  have hn : (1:ℝ) ≤ d.length := by exact_mod_cast hpos
  set pos := (d.length - 1 : ℝ) * (q / 100) with hp
  have hp0 : 0 ≤ pos := mul_nonneg (by linarith) (by linarith)
  have hp1 : pos ≤ d.length - 1 := mul_le_of_le_one_right (by linarith) (by linarith)
  have hi : ⌊pos⌋₊ < s.length := by
    rw [hlen, Nat.floor_lt hp0]; linarith
  have hf0 : 0 ≤ pos - ⌊pos⌋₊ := by linarith [Nat.floor_le hp0]
  have hf1 : pos - ⌊pos⌋₊ ≤ 1 := by linarith [Nat.lt_floor_add_one pos]
  have hsorted : s.Pairwise (· ≤ ·) := by
    have := List.pairwise_mergeSort (le := fun a b : ℝ => decide (a ≤ b))
      (fun a b c h1 h2 => by simp only [decide_eq_true_eq] at *; linarith)
      (fun a b => by simp only [Bool.or_eq_true, decide_eq_true_eq]; exact le_total a b) d
    exact this.imp fun h => by simpa using h
  have e0 : s.getD ⌊pos⌋₊ 0 = s[⌊pos⌋₊] := by
    rw [List.getD_eq_getElem?_getD, List.getElem?_eq_getElem hi]; rfl
  have hm0 : s.getD ⌊pos⌋₊ 0 ∈ d := by
    rw [e0]; exact hperm.subset (List.getElem_mem hi)
  have hnext : s.getD ⌊pos⌋₊ 0 ≤ s.getD (⌊pos⌋₊ + 1) (s.getD ⌊pos⌋₊ 0) ∧
      s.getD (⌊pos⌋₊ + 1) (s.getD ⌊pos⌋₊ 0) ∈ d := by
    rw [List.getD_eq_getElem?_getD (l := s) (i := ⌊pos⌋₊ + 1)]
    rcases Nat.lt_or_ge (⌊pos⌋₊ + 1) s.length with h | h
    · rw [List.getElem?_eq_getElem h, Option.getD_some, e0]
      exact ⟨List.pairwise_iff_getElem.1 hsorted _ _ _ _ (Nat.lt_succ_self _),
        hperm.subset (List.getElem_mem h)⟩
    · rw [List.getElem?_eq_none h, Option.getD_none]
      exact ⟨le_refl _, hm0⟩
  set a := s.getD ⌊pos⌋₊ 0
  set b := s.getD (⌊pos⌋₊ + 1) a
  refine ⟨⟨a, hm0, ?_⟩, b, hnext.2, ?_⟩
  · nlinarith [hnext.1]
  · nlinarith [hnext.1]

/-- Everything kept is strictly between two values of the data, in the original order. -/
theorem clean_spec {data : List NR} {d : List ℝ} (h : clean data = .ok d) :
    d.Sublist (finite data) ∧ ∀ x ∈ d, ∃ y ∈ finite data, ∃ z ∈ finite data, y < x ∧ x < z := by
  unfold clean at h
  simp only [bind, Except.bind, pure, Except.pure] at h
  cases h1 : percentile (finite data) 0.025 with
  | error e => rw [h1] at h; simp at h
  | ok lo =>
    rw [h1] at h
    simp only at h
    cases h2 : percentile ((finite data).filter fun x => decide (lo < x)) 99.975 with
    | error e => rw [h2] at h; simp at h
    | ok hi =>
      rw [h2] at h
      simp only [Except.ok.injEq] at h
      subst h
      refine ⟨List.filter_sublist.trans List.filter_sublist, ?_⟩
      intro x hx
      simp only [List.mem_filter, decide_eq_true_eq] at hx
      obtain ⟨⟨y, hy, hy'⟩, -⟩ := percentile_between (by norm_num) (by norm_num) h1
      obtain ⟨-, z, hz, hz'⟩ := percentile_between (by norm_num) (by norm_num) h2
      exact ⟨y, hy, z, (List.mem_filter.1 hz).1, by linarith [hx.1.2], by linarith [hx.2]⟩

theorem setItem_mem {ρ : Type} {d : List (Str × ρ)} {k m : Str} {v w : ρ}
    (h : (m, w) ∈ setItem d k v) : (m, w) ∈ d ∨ (m = k ∧ w = v) := by
  unfold setItem at h
  split_ifs at h
  · obtain ⟨e, he, heq⟩ := List.mem_map.1 h
    split_ifs at heq with hk
    · right; exact ⟨(congrArg Prod.fst heq).symm, (congrArg Prod.snd heq).symm⟩
    · left; rw [← heq]; exact he
  · rcases List.mem_append.1 h with h | h
    · exact Or.inl h
    · right; simpa using h

theorem fitLoop_mem {P : Type} {sci : Scipy P} {all train test : List ℝ} {dmin dscale : ℝ}
    {models : List Str} {start result : List (Str × P × ℝ)}
    (h : fitLoop sci all train test dmin dscale models start = .ok result) {m : Str} {p : P} {e : ℝ}
    (hm : (m, p, e) ∈ result) : (m, p, e) ∈ start ∨ ∃ q, fitDist sci m train dmin dscale = .ok q ∧
      fitDist sci m all dmin dscale = .ok p ∧ e = sci.ks test m q := by
  induction models generalizing start with
  | nil =>
    unfold fitLoop at h
    rw [← Except.ok.inj h] at hm
    exact Or.inl hm
  | cons k models ih =>
    unfold fitLoop at h
    simp only [bind, Except.bind, throw, throwThe, MonadExceptOf.throw] at h
    split_ifs at h
    cases h1 : fitDist sci k train dmin dscale with
    | error e => rw [h1] at h; simp at h
    | ok q =>
      rw [h1] at h
      simp only at h
      cases h2 : fitDist sci k all dmin dscale with
      | error e => rw [h2] at h; simp at h
      | ok p' =>
        rw [h2] at h
        simp only at h
        rcases ih h with h3 | h3
        · rcases setItem_mem h3 with h4 | ⟨rfl, h4⟩
          · exact Or.inl h4
          · obtain ⟨rfl, rfl⟩ := Prod.mk.inj h4
            exact Or.inr ⟨q, h1, h2, rfl⟩
        · exact Or.inr h3

theorem foldl_min_le (l : List ℝ) (x : ℝ) : l.foldl min x ≤ x ∧ ∀ y ∈ l, l.foldl min x ≤ y := by
  induction l generalizing x with
  | nil => simp
  | cons a l ih =>
    obtain ⟨h1, h2⟩ := ih (min x a)
    refine ⟨h1.trans (min_le_left _ _), ?_⟩
    intro y hy
    rcases List.mem_cons.1 hy with rfl | hy
    · exact h1.trans (min_le_right _ _)
    · exact h2 y hy

theorem le_foldl_max (l : List ℝ) (x : ℝ) : x ≤ l.foldl max x ∧ ∀ y ∈ l, y ≤ l.foldl max x := by
  induction l generalizing x with
  | nil => simp
  | cons a l ih =>
    obtain ⟨h1, h2⟩ := ih (max x a)
    refine ⟨(le_max_left _ _).trans h1, ?_⟩
    intro y hy
    rcases List.mem_cons.1 hy with rfl | hy
    · exact (le_max_right _ _).trans h1
    · exact h2 y hy

theorem pyMin_le {d : List ℝ} {m : ℝ} (h : pyMin d = .ok m) : d ≠ [] ∧ ∀ x ∈ d, m ≤ x := by
  cases d with
  | nil => simp [pyMin] at h
  | cons a l =>
    refine ⟨by simp, ?_⟩
    rw [← Except.ok.inj h]
    intro x hx
    rcases List.mem_cons.1 hx with rfl | hx
    · exact (foldl_min_le l x).1
    · exact (foldl_min_le l a).2 x hx

theorem le_pyMax {d : List ℝ} {m : ℝ} (h : pyMax d = .ok m) : ∀ x ∈ d, x ≤ m := by
  cases d with
  | nil => simp
  | cons a l =>
    rw [← Except.ok.inj h]
    intro x hx
    rcases List.mem_cons.1 hx with rfl | hx
    · exact (le_foldl_max l x).1
    · exact (le_foldl_max l a).2 x hx

theorem fit_ok {P : Type} {sci : Scipy P} {data : List NR} {models : Models}
    {result : List (Str × P × ℝ)} (h : fit sci data models = .ok result) :
    ∃ all lo hi l, clean data = .ok all ∧ pyMin all = .ok lo ∧ pyMax all = .ok hi ∧
      fitLoop sci all (sliceToLast all 0) (sliceToLast all 1) (lo - 1e-8)
        (hi + 1e-8 - (lo - 1e-8)) l [] = .ok result := by
  unfold fit at h
  simp only [bind, Except.bind, throw, throwThe, MonadExceptOf.throw, pure, Except.pure] at h
  cases models with
  | other => simp at h
  | str s =>
    simp only at h
    cases h1 : clean data with
    | error e => rw [h1] at h; simp at h
    | ok all =>
      rw [h1] at h; simp only at h
      cases h2 : pyMin all with
      | error e => rw [h2] at h; simp at h
      | ok lo =>
        rw [h2] at h; simp only at h
        cases h3 : pyMax all with
        | error e => rw [h3] at h; simp at h
        | ok hi => rw [h3] at h; exact ⟨all, lo, hi, _, rfl, h2, h3, h⟩
  | list s =>
    simp only at h
    cases h1 : clean data with
    | error e => rw [h1] at h; simp at h
    | ok all =>
      rw [h1] at h; simp only at h
      cases h2 : pyMin all with
      | error e => rw [h2] at h; simp at h
      | ok lo =>
        rw [h2] at h; simp only at h
        cases h3 : pyMax all with
        | error e => rw [h3] at h; simp at h
        | ok hi => rw [h3] at h; exact ⟨all, lo, hi, _, rfl, h2, h3, h⟩

/-- **C76.** Whatever SciPy's distributions do, the error reported for a model is computed on test data
that all belong to the training data: the test data are the training data without their first value
(the comment in the code announces a 50-50 split). The parameters reported are fitted to all cleaned
data, with one more value than the training data. -/
theorem C76_test_data_are_training_data {P : Type} (sci : Scipy P) (data : List NR) (models : Models)
    (result : List (Str × P × ℝ)) (h : fit sci data models = .ok result) (m : Str) (p : P) (e : ℝ)
    (hm : (m, p, e) ∈ result) :
    ∃ (all train test : List ℝ) (q : P) (floc fscale : Option ℝ),
      sci.fit m train floc fscale = .ok q ∧ e = sci.ks test m q ∧
      sci.fit m all floc fscale = .ok p ∧ all.Sublist (finite data) ∧
      (∃ last, all = train ++ [last]) ∧ test = train.tail := by
  obtain ⟨all, lo, hi, l, h1, h2, h3, h4⟩ := fit_ok h
  rcases fitLoop_mem h4 hm with h5 | ⟨q, h5, h6, h7⟩
  · simp at h5
  · have hne := (pyMin_le h2).1
    have key : ∃ floc fscale, sci.fit m (sliceToLast all 0) floc fscale = .ok q ∧
        sci.fit m all floc fscale = .ok p := by
      unfold fitDist at h5 h6
      split_ifs at h5 h6
      · exact ⟨_, _, h5, h6⟩
      · exact ⟨_, _, h5, h6⟩
      · exact ⟨_, _, h5, h6⟩
    obtain ⟨floc, fscale, k1, k2⟩ := key
    refine ⟨all, _, _, q, floc, fscale, k1, h7, k2, (clean_spec h1).1, ?_, ?_⟩
    · refine ⟨all.getLast hne, ?_⟩
      rw [sliceToLast, List.drop_zero, ← List.dropLast_eq_take, List.dropLast_append_getLast]
    · simp [sliceToLast]

/-- **C100.** `fit` never uses the smallest or the largest value, and raises unless the data contain at
least three different finite values. -/
theorem C100_extremes_dropped {P : Type} (sci : Scipy P) (data : List NR) (models : Models)
    (result : List (Str × P × ℝ)) (h : fit sci data models = .ok result) :
    (∃ x ∈ finite data, ∃ y ∈ finite data, ∃ z ∈ finite data, x < y ∧ y < z) ∧
    ∀ m p e, (m, p, e) ∈ result → ∃ (all : List ℝ) (floc fscale : Option ℝ),
      sci.fit m all floc fscale = .ok p ∧
      (∀ y ∈ all, ∃ x ∈ finite data, ∃ z ∈ finite data, x < y ∧ y < z) ∧
      (m = [110, 111, 114, 109] → floc = none ∧ fscale = none) ∧
      (m ≠ [110, 111, 114, 109] → ∃ a, floc = some a ∧ (∀ y ∈ all, a < y) ∧
        (m = [103, 97, 109, 109, 97] → fscale = none) ∧
        (m ≠ [103, 97, 109, 109, 97] → ∃ s, fscale = some s ∧ ∀ y ∈ all, y < a + s)) := by
  obtain ⟨all, lo, hi, l, h1, h2, h3, h4⟩ := fit_ok h
  obtain ⟨hne, hlo⟩ := pyMin_le h2
  have hhi := le_pyMax h3
  have hc := (clean_spec h1).2
  constructor
  · obtain ⟨y, hy⟩ := List.exists_mem_of_ne_nil _ hne
    obtain ⟨x, hx, z, hz, h5, h6⟩ := hc y hy
    exact ⟨x, hx, y, (clean_spec h1).1.subset hy, z, hz, h5, h6⟩
  · intro m p e hm
    rcases fitLoop_mem h4 hm with h5 | ⟨q, h5, h6, h7⟩
    · simp at h5
    · unfold fitDist at h6
      split_ifs at h6 with c1 c2
      · exact ⟨all, none, none, h6, hc, fun _ => ⟨rfl, rfl⟩, fun h => absurd c1 h⟩
      · exact ⟨all, _, none, h6, hc, fun h => absurd h c1, fun _ => ⟨_, rfl,
          fun y hy => by linarith [hlo y hy], fun _ => rfl, fun h => absurd c2 h⟩⟩
      · exact ⟨all, _, _, h6, hc, fun h => absurd h c1, fun _ => ⟨_, rfl,
          fun y hy => by linarith [hlo y hy], fun h => absurd h c2,
          fun _ => ⟨_, rfl, fun y hy => by linarith [hhi y hy]⟩⟩⟩

/-- **C100, arguments.** Models that are neither a string nor a list raise RuntimeError; data with at
most two different finite values raise in any case. -/
theorem C100_raises {P : Type} (sci : Scipy P) (data : List NR) (models : Models) :
    fit sci data .other = .error .runtimeError ∧
    ∀ a b, (∀ x ∈ finite data, x = a ∨ x = b) → ∃ e, fit sci data models = .error e := by
  refine ⟨rfl, ?_⟩
  intro a b h
  cases hf : fit sci data models with
  | error e => exact ⟨e, rfl⟩
  | ok r =>
    exfalso
    obtain ⟨x, hx, y, hy, z, hz, h1, h2⟩ := (C100_extremes_dropped sci data models r hf).1
    rcases h x hx with rfl | rfl <;> rcases h y hy with rfl | rfl <;> rcases h z hz with rfl | rfl <;>
      linarith

/-- **C100, names.** A name that SciPy does not know raises AttributeError on data that can be fitted with
some other model, and never gives a result. -/
theorem C100_unknown_name {P : Type} (sci : Scipy P) (data : List NR) (m : Str)
    (hm : sci.known m = false) :
    (∃ e, fit sci data (.str m) = .error e) ∧
    ∀ models result, fit sci data models = .ok result → fit sci data (.str m) = .error .attributeError := by
  have key : ∀ models result, fit sci data models = .ok result →
      fit sci data (.str m) = .error .attributeError := by
    intro models result h
    obtain ⟨all, lo, hi, l, h1, h2, h3, h4⟩ := fit_ok h
    simp only [fit, bind, Except.bind, pure, Except.pure, h1, h2, h3, fitLoop, hm]
    rfl
  refine ⟨?_, key⟩
  cases hf : fit sci data (.str m) with
  | error e => exact ⟨e, rfl⟩
  | ok r => rw [key _ _ hf] at hf; cases hf

/-- Constant data cannot be fitted. -/
example {P : Type} (sci : Scipy P) : ∃ e, fit sci [.val 5, .val 5, .nan, .val 5] (.str [110]) = .error e :=
  (C100_raises sci _ _).2 5 5 (by simp [finite])

/-- With any SciPy whose fit returns the data it was given, five values leave the three in the middle:
training data 2, 3 and test data 3. -/
example : fit ⟨fun _ => true, fun _ d _ _ => .ok d, fun d _ q => d.sum + 10 * q.sum⟩
    [.val 1, .val 2, .nan, .val 3, .val 4, .val 5] (.str [110, 111, 114, 109]) =
    .ok [([110, 111, 114, 109], [2, 3, 4], 53)] := by
  have hc : clean [.val 1, .val 2, .nan, .val 3, .val 4, .val 5] = .ok [2, 3, 4] := by
    have s1 : ([1, 2, 3, 4, 5] : List ℝ).mergeSort (fun a b => decide (a ≤ b)) = [1, 2, 3, 4, 5] :=
      List.mergeSort_of_pairwise (by norm_num)
    have s2 : ([2, 3, 4, 5] : List ℝ).mergeSort (fun a b => decide (a ≤ b)) = [2, 3, 4, 5] :=
      List.mergeSort_of_pairwise (by norm_num)
    have p1 : percentile [1, 2, 3, 4, 5] 0.025 = .ok 1.001 := by
      have : ⌊(1 / 1000 : ℝ)⌋₊ = 0 := by rw [Nat.floor_eq_zero]; norm_num
      simp only [percentile, s1, List.length_cons, List.length_nil, reduceCtorEq, if_false]
      norm_num
      rw [this]; norm_num
    have p2 : percentile [2, 3, 4, 5] 99.975 = .ok 4.99925 := by
      have : ⌊(3 : ℝ) * (99.975 / 100)⌋₊ = 2 := by rw [Nat.floor_eq_iff (by norm_num)]; norm_num
      simp only [percentile, s2, List.length_cons, List.length_nil, reduceCtorEq, if_false]
      norm_num at this ⊢
      rw [this]; norm_num
    have f1 : finite [.val 1, .val 2, .nan, .val 3, .val 4, .val 5] = [1, 2, 3, 4, 5] := rfl
    have d1 : ([1, 2, 3, 4, 5] : List ℝ).filter (fun x => decide (1.001 < x)) = [2, 3, 4, 5] := by
      norm_num [List.filter_cons]
    have d2 : ([2, 3, 4, 5] : List ℝ).filter (fun x => decide (x < 4.99925)) = [2, 3, 4] := by
      norm_num [List.filter_cons]
    simp only [clean, bind, Except.bind, pure, Except.pure, f1, p1, d1, p2, d2]
  have m1 : pyMin [2, 3, 4] = .ok 2 := by norm_num [pyMin]
  have m2 : pyMax [2, 3, 4] = .ok 4 := by norm_num [pyMax]
  simp only [fit, bind, Except.bind, pure, Except.pure, hc, m1, m2, fitLoop, fitDist]
  norm_num [sliceToLast, setItem]

end Verif.Props
