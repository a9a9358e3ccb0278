import Verif.Lemmas.Filters

/-!
# C65, C66: sorting and filling of samples
-/

namespace Verif.Props
open Verif Verif.Filters

open Classical in
/-- **C65.** `sortxy` returns the samples ordered by time, all of them, and for each time in their
original order. -/
theorem C65_sortxy {β : Type} (X : List ℝ) (Y : List β) (hl : X.length = Y.length) (hne : X ≠ []) :
    ∃ X' Y', sortxy X Y = .ok (X', Y') ∧ X'.length = Y'.length ∧ (X'.zip Y').Perm (X.zip Y) ∧
      X'.Pairwise (· ≤ ·) ∧
      ∀ t, (X'.zip Y').filter (fun s => decide (s.1 = t)) =
        (X.zip Y).filter (fun s => decide (s.1 = t)) := by
  refine ⟨_, _, sortxy_ok hl hne, by simp, ?_, ?_, ?_⟩
  · rw [List.zip_map', List.map_id']; exact sorted_perm X Y
  · exact List.pairwise_map.2 (sorted_pairwise X Y)
  · intro t
    rw [List.zip_map', List.map_id']
    exact sorted_stable X Y t

/-- **C65, borderline inputs.** No samples at all raise ValueError; samples without a partner are
dropped silently. -/
theorem C65_borderline {β : Type} :
    sortxy ([] : List ℝ) ([] : List β) = .error .valueError ∧
    ∀ (X X' : List ℝ) (Y Y' : List β), X.length = Y.length → X' = [] ∨ Y' = [] →
      sortxy (X ++ X') (Y ++ Y') = sortxy X Y := by
  refine ⟨by simp [sortxy], ?_⟩
  intro X X' Y Y' hl h
  have : (X ++ X').zip (Y ++ Y') = X.zip Y := by
    rw [List.zip_append hl]
    rcases h with rfl | rfl <;> simp
  unfold sortxy
  rw [this]

/-- Two samples at time 2 keep their order; the early one moves to the front. -/
example : sortxy [2, 1, 2] ["a", "b", "c"] = .ok ([1, 2, 2], ["b", "a", "c"]) := by
  obtain ⟨X', Y', h, hl, hp, hs, hf⟩ := C65_sortxy [2, 1, 2] ["a", "b", "c"] rfl (by simp)
  have hX : X' = [1, 2, 2] := by
    have h1 : (X'.zip Y').map Prod.fst = X' := List.map_fst_zip hl.le
    have h2 := hp.map Prod.fst
    rw [h1] at h2
    exact (h2.trans (by simpa using List.Perm.swap (1:ℝ) 2 [2])).eq_of_pairwise
      (fun a b _ _ h1 h2 => le_antisymm h1 h2) hs (by simp)
  subst hX
  obtain ⟨y1, y2, y3, rfl⟩ : ∃ a b c, Y' = [a, b, c] := by
    rcases Y' with _ | ⟨a, _ | ⟨b, _ | ⟨c, _ | ⟨d, l⟩⟩⟩⟩ <;> simp at hl
    exact ⟨a, b, c, rfl⟩
  have f1 := hf 1
  have f2 := hf 2
  simp at f1 f2
  rw [h]
  simp [f1, f2]

/-! ## C66 -/

/-- The first value recorded at time `t`. -/
noncomputable def recorded (X Y : List ℝ) (t : ℝ) : Option ℝ :=
  open Classical in ((X.zip Y).find? fun s => decide (s.1 = t)).map (·.2)

/-- Truncation towards zero. -/
noncomputable def truncated (x : ℝ) : ℤ := if 0 ≤ x then ⌊x⌋ else ⌈x⌉

theorem recorded_sorted (X Y : List ℝ) (t : ℝ) :
    recorded ((sorted X Y).map (·.1)) ((sorted X Y).map (·.2)) t = recorded X Y t := by
  classical
  unfold recorded
  rw [List.zip_map', List.map_id', ← List.head?_filter, ← List.head?_filter, sorted_stable]

theorem fillValue_eq (X Y : List ℝ) (hl : X.length = Y.length) (y : ℝ) (x : ℤ) :
    fillValue X Y y x = (recorded X Y x).getD y := by
  classical
  unfold fillValue recorded
  induction X generalizing Y with
  | nil => simp
  | cons a X ih =>
    cases Y with
    | nil => simp at hl
    | cons c Y =>
      rw [List.findIdx?_cons, List.zip_cons_cons, List.find?_cons]
      by_cases h : a = (x : ℝ)
      · simp [h]
      · simp only [h, decide_false, Bool.false_eq_true, if_false]
        rw [← ih Y (by simpa using hl)]
        cases X.findIdx? fun t => decide (t = (x : ℝ)) <;> simp

theorem fillLoop_length (X Y : List ℝ) (y : ℝ) (l : List ℤ) : (fillLoop X Y y l).length = l.length := by
  induction l generalizing y with
  | nil => rfl
  | cons x l ih => simp [fillLoop, ih]

theorem fillLoop_get (X Y : List ℝ) (hl : X.length = Y.length) (y : ℝ) (l : List ℤ) (k : ℕ)
    (hk : k < l.length) : (fillLoop X Y y l)[k]? =
      some ((recorded X Y l[k]).getD (if k = 0 then y else (fillLoop X Y y l).getD (k - 1) 0)) := by
  induction l generalizing y k with
  | nil => simp at hk
  | cons x l ih =>
    cases k with
    | zero => simp [fillLoop, fillValue_eq X Y hl]
    | succ k =>
      simp only [fillLoop, List.getElem?_cons_succ]
      rw [ih _ _ (by simpa using hk)]
      simp only [List.getElem_cons_succ, Nat.add_sub_cancel]
      cases k with
      | zero => simp
      | succ k => simp

/-- **C66, all inputs.** With first time `a` and last time `b`, `simplefill` returns the seconds from
`int(a)` up to, not including, `int(b + 1)`. The value of a second is the first value recorded at
exactly that time; a second without a recorded value takes the value of the previous second, and
0 if there is none. -/
theorem C66_simplefill (X Y : List ℝ) (hl : X.length = Y.length) (a b : ℝ) (ha : a ∈ X) (hb : b ∈ X)
    (hX : ∀ t ∈ X, a ≤ t ∧ t ≤ b) :
    ∃ full vals, simplefill X Y = .ok (full, vals) ∧
      full.length = (truncated (b + 1) - truncated a).toNat ∧ vals.length = full.length ∧
      (∀ k, ∀ h : k < full.length, full[k] = truncated a + k) ∧
      ∀ k, ∀ h : k < full.length, vals[k]? = some ((recorded X Y full[k]).getD
        (if k = 0 then 0 else vals.getD (k - 1) 0)) := by
  have hne : X ≠ [] := List.ne_nil_of_mem ha
  unfold simplefill
  rw [sortxy_ok hl hne]
  simp only [bind, Except.bind, pure, Except.pure]
  have hperm : ((sorted X Y).map (·.1)).Perm X := by
    have := (sorted_perm X Y).map Prod.fst
    rwa [List.map_fst_zip hl.le] at this
  have hpw : ((sorted X Y).map (·.1)).Pairwise (· ≤ ·) := List.pairwise_map.2 (sorted_pairwise X Y)
  have hfill := fillLoop_get ((sorted X Y).map (·.1)) ((sorted X Y).map (·.2)) (by simp) 0
  have hrec := recorded_sorted X Y
  generalize hS : (sorted X Y).map (·.1) = S at *
  have hSne : S ≠ [] := by rintro rfl; exact hne hperm.symm.eq_nil
  have hhead : S.headD 0 = a := by
    cases S with
    | nil => exact absurd rfl hSne
    | cons s S =>
      have h1 := (hX s (hperm.subset List.mem_cons_self)).1
      have h2 : s ≤ a := by
        rcases List.mem_cons.1 (hperm.symm.subset ha) with e | e
        · exact e.ge
        · exact (List.pairwise_cons.1 hpw).1 _ e
      exact le_antisymm h2 h1
  have hlast : S.getLastD 0 = b := by
    rw [List.getLastD_eq_getLast?, List.getLast?_eq_some_getLast hSne, Option.getD_some]
    refine le_antisymm (hX _ (hperm.subset (List.getLast_mem hSne))).2 ?_
    obtain ⟨i, hi, e⟩ := List.mem_iff_getElem.1 (hperm.symm.subset hb)
    rw [← e, List.getLast_eq_getElem]
    rcases Nat.lt_or_ge i (S.length - 1) with h | h
    · exact List.pairwise_iff_getElem.1 hpw _ _ hi _ h
    · have : i = S.length - 1 := by omega
      subst this; exact le_refl _
  rw [hhead, hlast]
  have ht : ∀ x, pyInt x = truncated x := fun x => rfl
  rw [ht, ht]
  refine ⟨_, _, rfl, by simp [intRange], fillLoop_length .., ?_, ?_⟩
  · intro k h; simp [intRange]
  · intro k h
    rw [hfill _ k h, hrec]

theorem truncated_int (z : ℤ) : truncated (z : ℝ) = z := by
  unfold truncated; split_ifs <;> simp

theorem recorded_some {X Y : List ℝ} (hl : X.length = Y.length) {t : ℝ} (h : t ∈ X) :
    ∃ i, ∃ h1 : i < X.length, ∃ h2 : i < Y.length, X[i] = t ∧ (∀ j, ∀ hj : j < i, X[j] ≠ t) ∧
      recorded X Y t = some Y[i] := by
  classical
  induction X generalizing Y with
  | nil => simp at h
  | cons a X ih =>
    cases Y with
    | nil => simp at hl
    | cons c Y =>
      by_cases e : a = t
      · exact ⟨0, by simp, by simp, e, by simp, by simp [recorded, e]⟩
      · obtain ⟨i, h1, h2, h3, h4, h5⟩ := ih (by simpa using hl)
          ((List.mem_cons.1 h).resolve_left (Ne.symm e))
        refine ⟨i + 1, by simpa using h1, by simpa using h2, h3, ?_, ?_⟩
        · intro j hj
          cases j with
          | zero => exact e
          | succ j => exact h4 j (by omega)
        · unfold recorded at h5 ⊢
          rw [List.zip_cons_cons, List.find?_cons]
          simpa [e] using h5

theorem recorded_none {X Y : List ℝ} {t : ℝ} (h : t ∉ X) : recorded X Y t = none := by
  classical
  unfold recorded
  rw [Option.map_eq_none_iff, List.find?_eq_none]
  intro s hs
  have : s.1 ∈ X := (List.of_mem_zip (a := s.1) (b := s.2) hs).1
  simp only [decide_eq_true_eq]
  rintro rfl
  exact h this

/-- **C66.** For whole-second time stamps from `a` to `b` there is one value for each second from `a`
to `b`: the first value recorded at the latest stamped second that is not later. -/
theorem C66_whole_seconds (T : List ℤ) (Y : List ℝ) (hl : T.length = Y.length) (a b : ℤ) (ha : a ∈ T)
    (hb : b ∈ T) (hT : ∀ t ∈ T, a ≤ t ∧ t ≤ b) :
    ∃ full vals, simplefill (T.map fun t : ℤ => (t : ℝ)) Y = .ok (full, vals) ∧
      (∀ t, t ∈ full ↔ a ≤ t ∧ t ≤ b) ∧ full.Pairwise (· < ·) ∧ vals.length = full.length ∧
      ∀ k, ∀ h : k < full.length, ∃ i, ∃ h1 : i < T.length, ∃ h2 : i < Y.length,
        T[i] ≤ full[k] ∧ (∀ t ∈ T, t ≤ full[k] → t ≤ T[i]) ∧ (∀ j, ∀ hj : j < i, T[j] ≠ T[i]) ∧
        vals[k]? = some Y[i] := by
  obtain ⟨full, vals, h, h1, h2, h3, h4⟩ := C66_simplefill (T.map fun t : ℤ => (t : ℝ)) Y
    (by simpa using hl) a b (List.mem_map_of_mem ha) (List.mem_map_of_mem hb) (by
      intro t ht
      obtain ⟨z, hz, rfl⟩ := List.mem_map.1 ht
      exact_mod_cast hT z hz)
  have hab := (hT a ha).2
  have e1 : truncated ((b : ℝ) + 1) = b + 1 := by
    rw [← truncated_int (b + 1)]; push_cast; rfl
  rw [truncated_int] at h1 h3
  rw [e1] at h1
  refine ⟨full, vals, h, ?_, ?_, h2, ?_⟩
  · intro t
    constructor
    · intro ht
      obtain ⟨k, hk, rfl⟩ := List.mem_iff_getElem.1 ht
      rw [h3 k hk]; omega
    · intro ht
      refine List.mem_iff_getElem.2 ⟨(t - a).toNat, by omega, ?_⟩
      rw [h3]; omega
  · rw [List.pairwise_iff_getElem]
    intro i j hi hj hij
    rw [h3, h3]; omega
  · intro k
    induction k with
    | zero =>
      intro hk
      obtain ⟨i, g1, g2, g3, g4, g5⟩ := recorded_some (X := T.map fun t : ℤ => (t : ℝ)) (Y := Y)
        (by simpa using hl) (t := (a : ℝ)) (List.mem_map_of_mem ha)
      have g1' : i < T.length := by simpa using g1
      have e : T[i] = a := by simpa using g3
      have ef : full[0] = a := by rw [h3]; simp
      refine ⟨i, g1', g2, by rw [e, ef], fun t _ ht => by rw [e, ← ef]; exact ht, ?_, ?_⟩
      · intro j hj
        have := g4 j hj
        rw [e]; simpa using this
      · rw [h4 0 hk, ef, g5]; rfl
    | succ k ih =>
      intro hk
      by_cases hm : full[k + 1] ∈ T
      · obtain ⟨i, g1, g2, g3, g4, g5⟩ := recorded_some (X := T.map fun t : ℤ => (t : ℝ)) (Y := Y)
          (by simpa using hl) (t := ((full[k + 1] : ℤ) : ℝ))
          (List.mem_map_of_mem (f := fun t : ℤ => (t : ℝ)) hm)
        have g1' : i < T.length := by simpa using g1
        have e : T[i] = full[k + 1] := by simpa using g3
        refine ⟨i, g1', g2, e.le, fun t _ ht => by rw [e]; exact ht, ?_, ?_⟩
        · intro j hj
          have := g4 j hj
          rw [e]; simpa using this
        · rw [h4 _ hk, g5]; rfl
      · obtain ⟨i, g1, g2, g3, g4, g5, g6⟩ := ih (by omega)
        have e : full[k + 1] = full[k] + 1 := by rw [h3, h3]; push_cast; ring
        refine ⟨i, g1, g2, by omega, ?_, g5, ?_⟩
        · intro t ht hle
          refine g4 t ht ?_
          have : t ≠ full[k + 1] := fun e' => hm (e' ▸ ht)
          omega
        · have hr : recorded (T.map fun t : ℤ => (t : ℝ)) Y ((full[k + 1] : ℤ) : ℝ) = none := by
            apply recorded_none
            intro hh
            obtain ⟨z, hz, ez⟩ := List.mem_map.1 hh
            exact hm ((Int.cast_injective (α := ℝ) ez) ▸ hz)
          rw [h4 _ hk, hr, if_neg (by omega), Nat.add_sub_cancel, List.getD_eq_getElem?_getD, g6]
          rfl

/-- **C66, fractional time stamps.** If no time stamp is a whole second, all recorded values are
ignored and zeros are returned. -/
theorem C66_fractional_times_ignored (X Y : List ℝ) (hl : X.length = Y.length) (hne : X ≠ [])
    (hfrac : ∀ t ∈ X, ∀ z : ℤ, t ≠ z) :
    ∃ full vals, simplefill X Y = .ok (full, vals) ∧ ∀ v ∈ vals, v = 0 := by
  obtain ⟨a, ha, hamin⟩ : ∃ a ∈ X, ∀ t ∈ X, a ≤ t := by
    obtain ⟨a, h1, h2⟩ := X.toFinset.exists_min_image id (by simpa using hne)
    exact ⟨a, by simpa using h1, fun t ht => h2 t (by simpa using ht)⟩
  obtain ⟨b, hb, hbmax⟩ : ∃ b ∈ X, ∀ t ∈ X, t ≤ b := by
    obtain ⟨b, h1, h2⟩ := X.toFinset.exists_max_image id (by simpa using hne)
    exact ⟨b, by simpa using h1, fun t ht => h2 t (by simpa using ht)⟩
  obtain ⟨full, vals, h, h1, h2, h3, h4⟩ := C66_simplefill X Y hl a b ha hb
    fun t ht => ⟨hamin t ht, hbmax t ht⟩
  refine ⟨full, vals, h, ?_⟩
  have key : ∀ k, k < full.length → vals[k]? = some 0 := by
    intro k
    induction k with
    | zero =>
      intro hk
      rw [h4 0 hk, recorded_none fun hm => hfrac _ hm _ rfl]; rfl
    | succ k ih =>
      intro hk
      rw [h4 _ hk, recorded_none fun hm => hfrac _ hm _ rfl, if_neg (by omega),
        List.getD_eq_getElem?_getD, Nat.add_sub_cancel, ih (by omega)]
      rfl
  intro v hv
  obtain ⟨k, hk, rfl⟩ := List.mem_iff_getElem.1 hv
  have := key k (by omega)
  rw [List.getElem?_eq_getElem hk] at this
  exact Option.some.inj this

/-- A gap at second 4 and a doubled stamp at second 3, given out of order. -/
example : ∃ full vals, simplefill ([5, 3, 3].map fun t : ℤ => (t : ℝ)) [50, 30, 31] =
    .ok (full, vals) ∧ full.length = 3 := by
  obtain ⟨full, vals, h, h1, h2, -⟩ := C66_whole_seconds [5, 3, 3] [50, 30, 31] rfl 3 5 (by simp)
    (by simp) (by simp)
  refine ⟨full, vals, h, ?_⟩
  have hn : full.Nodup := h2.imp fun h => ne_of_lt h
  have : full.toFinset = Finset.Icc 3 5 := by ext t; simp [h1]
  rw [← List.toFinset_card_of_nodup hn, this]
  rfl

end Verif.Props
