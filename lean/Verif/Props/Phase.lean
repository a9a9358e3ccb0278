import Verif.Lemmas.PhaseIndex

/-!
# C58–C63, C91: flight phases
-/

namespace Verif.Props
open Verif Verif.Phase Verif.PhaseSpec

/-- **C58.** For an accepted trajectory with sorted times and a positive window length, whatever
the data and whichever of them are missing, `phaselabel` returns one label per sample. -/
theorem C58_one_label_per_sample {o o' : Obj} {ts : List ℝ} {alt spd roc : List NR} {d : ℝ}
    (hset : setTrajectory o ts alt spd roc = (.ok (), o')) (hd : 0 < d)
    (hs : ts.Pairwise (· ≤ ·)) :
    ∃ labels, phaselabel o' d = .ok labels ∧ labels.length = ts.length := by
  obtain ⟨h1, -, -⟩ := phaselabel_eq d hset
  refine ⟨_, h1, ?_⟩
  rw [fold_sorted hd hs]
  simp [upTo]

theorem label_at {o o' : Obj} {ts : List ℝ} {alt spd roc : List NR} {d : ℝ} {labels : List Label}
    (hset : setTrajectory o ts alt spd roc = (.ok (), o')) (hd : 0 < d)
    (hs : ts.Pairwise (· ≤ ·)) (hl : phaselabel o' d = .ok labels) (i : ℕ) (hi : i < ts.length) :
    labels[i]? = some (if window ts d i < window ts d (ts.length - 1) then
      lab (winner ts alt spd roc d (window ts d i)) else .NA) := by
  obtain ⟨h1, h2, -⟩ := phaselabel_eq d hset
  rw [h1] at hl
  obtain rfl := Except.ok.inj hl
  rw [fold_sorted hd hs, maxInt_sorted hd hs h2]
  have h0 : 0 ≤ window ts d (ts.length - 1) := by
    have := window_mono (i := 0) hd hs (Nat.zero_le _) (by omega : ts.length - 1 < ts.length)
    rwa [window_zero] at this
  unfold upTo
  rw [List.getElem?_map, List.getElem?_range hi, Option.map_some, Int.toNat_of_nonneg h0]

/-- **C59.** The label of a sample (outside the last window) is the strongest phase of its time
window, ties going to the later of GND, CL, DE, CR, LVL. Strengths are the smallest of the three
interpolated memberships of the window means; missing speed or rate of climb is left out, a
missing altitude makes all phases equally strong (so that the label is LVL). -/
theorem C59_strongest_phase {o o' : Obj} {ts : List ℝ} {alt spd roc : List NR} {d : ℝ}
    {labels : List Label} (hset : setTrajectory o ts alt spd roc = (.ok (), o')) (hd : 0 < d)
    (hs : ts.Pairwise (· ≤ ·)) (hl : phaselabel o' d = .ok labels) (i : ℕ) (hi : i < ts.length)
    (hw : window ts d i < window ts d (ts.length - 1)) :
    (labels[i]? = some .GND ↔ WindowPhase ts alt spd roc d (window ts d i) .ground) ∧
    (labels[i]? = some .CL ↔ WindowPhase ts alt spd roc d (window ts d i) .climb) ∧
    (labels[i]? = some .DE ↔ WindowPhase ts alt spd roc d (window ts d i) .descent) ∧
    (labels[i]? = some .CR ↔ WindowPhase ts alt spd roc d (window ts d i) .cruise) ∧
    (labels[i]? = some .LVL ↔ WindowPhase ts alt spd roc d (window ts d i) .level) := by
  rw [label_at hset hd hs hl i hi, if_pos hw]
  have key : ∀ p l, lab p = l → (∀ q, lab q = l → q = p) →
      (some (lab (winner ts alt spd roc d (window ts d i))) = some l ↔
        WindowPhase ts alt spd roc d (window ts d i) p) := by
    intro p l hp hq
    have hw' := winner_spec ts alt spd roc d (window ts d i)
    constructor
    · intro h
      have := hq _ (Option.some.inj h)
      rw [← this]; exact hw'
    · intro h
      rw [strongest_unique hw' h, hp]
  refine ⟨key .ground .GND rfl ?_, key .climb .CL rfl ?_, key .descent .DE rfl ?_,
    key .cruise .CR rfl ?_, key .level .LVL rfl ?_⟩ <;>
    (intro q h; cases q <;> first | rfl | (exact absurd h (by decide)))

/-- A parked aircraft: at zero altitude, speed and rate of climb the strongest phase is ground. -/
example : Strongest (strength (.val 0) (.val 0) (.val 0)) .ground := by
  have b0 : ∀ (d : ℝ) (f : ℝ → ℝ) (lo hi : ℝ), lo ≤ 0 → 0 ≤ hi →
      between d f (max (min 0 hi) lo) = f 0 := by
    intro d f lo hi h1 h2
    rw [min_eq_left h2, max_eq_left h1]
    simp [between]
  have ha : ∀ p, altDegree p 0 = _ := fun p => b0 1 _ 0 39999 (le_refl _) (by norm_num)
  have hs : ∀ p, spdDegree p 0 = _ := fun p => b0 1 _ 0 599 (le_refl _) (by norm_num)
  have hr : ∀ p, rocDegree p 0 = _ := fun p => b0 0.1 _ (-4000) 3999.9 (by norm_num) (by norm_num)
  have lt1 : ∀ m s : ℝ, m ≠ 0 → s ≠ 0 → bell m s 0 < 1 := by
    intro m s h1 h2
    unfold bell
    rw [Real.exp_lt_one_iff]
    have : 0 < ((0 - m) / s) ^ 2 := by
      have : (0 - m) / s ≠ 0 := by simp [h1, h2]
      positivity
    linarith
  have hg : strength (.val 0) (.val 0) (.val 0) .ground = 1 := by
    simp only [strength, orFull, ha, hs, hr]
    simp [fall, rise, bell]
  have hq : ∀ q, q ≠ PhaseSpec.Phase.ground → strength (.val 0) (.val 0) (.val 0) q < 1 := by
    intro q hq
    have : strength (.val 0) (.val 0) (.val 0) q ≤ spdDegree q 0 :=
      (min_le_right _ _).trans (min_le_right _ _)
    refine this.trans_lt ?_
    rw [hs]
    cases q
    · exact absurd rfl hq
    all_goals exact lt1 _ _ (by norm_num) (by norm_num)
  intro q
  rw [hg]
  by_cases h : q = .ground
  · subst h; rw [hg]; exact ⟨le_refl _, fun h => absurd h (lt_irrefl _)⟩
  · exact ⟨(hq q h).le, fun _ => hq q h⟩

/-- Sorted times over two windows of 60 s, with missing data: the hypotheses of C58–C60 are met. -/
example : ∃ o', setTrajectory {} [10, 40, 75] [.val 0, .nan, .val 0] [.val 0, .val 0, .val 0]
    [.val 0, .val 0, .val 0] = (.ok (), o') ∧ ([10, 40, 75] : List ℝ).Pairwise (· ≤ ·) ∧
    window [10, 40, 75] 60 1 < window [10, 40, 75] 60 (([10, 40, 75] : List ℝ).length - 1) := by
  refine ⟨_, rfl, by simp; norm_num, ?_⟩
  unfold window
  norm_num

/-- **C59, missing altitude.** A window with a missing altitude is labelled LVL. -/
theorem C59_missing_altitude {o o' : Obj} {ts : List ℝ} {alt spd roc : List NR} {d : ℝ}
    {labels : List Label} (hset : setTrajectory o ts alt spd roc = (.ok (), o')) (hd : 0 < d)
    (hs : ts.Pairwise (· ≤ ·)) (hl : phaselabel o' d = .ok labels) (i : ℕ) (hi : i < ts.length)
    (hw : window ts d i < window ts d (ts.length - 1)) (j : ℕ) (hj : j < ts.length)
    (hij : window ts d j = window ts d i) (hmiss : alt[j]? = some .nan) :
    labels[i]? = some .LVL := by
  refine (C59_strongest_phase hset hd hs hl i hi hw).2.2.2.2.2 ?_
  have : mean alt (members ts d (window ts d i)) = .nan := by
    unfold PhaseSpec.mean
    rw [if_pos]
    refine ⟨j, Finset.mem_filter.2 ⟨by simpa using hj, hij⟩, ?_⟩
    rw [List.getD_eq_getElem?_getD, hmiss]; rfl
  unfold WindowPhase
  rw [this]
  intro q
  refine ⟨le_refl _, ?_⟩
  intro h
  cases q <;> simp [PhaseSpec.Phase.rank] at h

/-- **C60.** Exactly the samples of the last time window get no phase (NA). In particular there is
always at least one such sample. -/
theorem C60_last_window_unlabelled {o o' : Obj} {ts : List ℝ} {alt spd roc : List NR} {d : ℝ}
    {labels : List Label} (hset : setTrajectory o ts alt spd roc = (.ok (), o')) (hd : 0 < d)
    (hs : ts.Pairwise (· ≤ ·)) (hl : phaselabel o' d = .ok labels) :
    (∀ i, i < ts.length →
      (labels[i]? = some .NA ↔ window ts d i = window ts d (ts.length - 1))) ∧
    labels[ts.length - 1]? = some .NA := by
  have key : ∀ i, i < ts.length →
      (labels[i]? = some .NA ↔ window ts d i = window ts d (ts.length - 1)) := by
    intro i hi
    rw [label_at hset hd hs hl i hi]
    have hm : window ts d i ≤ window ts d (ts.length - 1) := window_mono hd hs (by omega) (by omega)
    split_ifs with h
    · constructor
      · intro e
        have e' := Option.some.inj e
        generalize winner ts alt spd roc d (window ts d i) = p at e'
        exact absurd e' (by cases p <;> decide)
      · intro e; omega
    · exact ⟨fun _ => by omega, fun _ => rfl⟩
  refine ⟨key, ?_⟩
  have hne : ts ≠ [] := (phaselabel_eq d hset).2.1
  exact (key _ (by have := List.length_pos_of_ne_nil hne; omega)).2 rfl

/-- **C61.** For arbitrary, also unsorted, times `phaselabel` still returns, with at most one label
per sample. -/
theorem C61_never_too_many {o o' : Obj} {ts : List ℝ} {alt spd roc : List NR} (d : ℝ) (_hd : 0 < d)
    (hset : setTrajectory o ts alt spd roc = (.ok (), o')) :
    ∃ labels, phaselabel o' d = .ok labels ∧ labels.length ≤ ts.length := by
  obtain ⟨h1, -, -⟩ := phaselabel_eq d hset
  exact ⟨_, h1, fold_length _ _ (by simp)⟩

/-- **C61, labels lost.** Whenever four samples lie in windows 0, 1, 0, 2 (in this order), whatever
the data, only three labels come back. -/
theorem C61_unsorted_loses_labels {o o' : Obj} {ts : List ℝ} {alt spd roc : List NR} (d : ℝ)
    (hset : setTrajectory o ts alt spd roc = (.ok (), o')) (h4 : ts.length = 4)
    (w1 : window ts d 1 = 1) (w2 : window ts d 2 = 0) (w3 : window ts d 3 = 2) :
    ∃ labels, phaselabel o' d = .ok labels ∧ labels.length = 3 := by
  obtain ⟨h1, -, -⟩ := phaselabel_eq d hset
  refine ⟨_, h1, ?_⟩
  have r4 : List.range 4 = [0, 1, 2, 3] := rfl
  have w0 := window_zero ts d
  have i0 : idx ts d ((0:ℕ):ℤ) = [0, 2] := by
    unfold idx; rw [h4, r4]
    simp [w0, w1, w2, w3]
  have i1 : idx ts d ((1:ℕ):ℤ) = [1] := by
    unfold idx; rw [h4, r4]
    simp [w0, w1, w2, w3]
  rw [h4, r4]
  have hm : maxInt ([0, 1, 2, 3].map (window ts d)) = 2 := by
    simp [w0, w1, w2, w3, maxInt]
  rw [hm]
  have r2 : List.range (2:ℤ).toNat = [0, 1] := rfl
  rw [r2]
  simp only [List.foldl_cons, List.foldl_nil, turn, i0, i1]
  simp [sliceAssign]

/-- Times 0, 60, 1, 120 with a window of 60 s. -/
example : window [0, 60, 1, 120] 60 1 = 1 ∧ window [0, 60, 1, 120] 60 2 = 0 ∧
    window [0, 60, 1, 120] 60 3 = 2 := by
  unfold window
  norm_num

/-- **C62.** `set_trajectory` overwrites the fields before it checks the lengths: after a rejected
call the object holds the rejected data together with the old number of samples. Only an empty
time array leaves it unchanged. -/
theorem C62_rejected_data_kept (o : Obj) (ts : List ℝ) (alt spd roc : List NR) (hne : ts ≠ [])
    (hl : ¬ (alt.length = ts.length ∧ spd.length = ts.length ∧ roc.length = ts.length)) :
    ∃ o', setTrajectory o ts alt spd roc = (.error .runtimeError, o') ∧
      o'.ts = some (ts.map (· - ts.headD 0)) ∧ o'.alt = some alt ∧ o'.spd = some spd ∧
      o'.roc = some roc ∧ o'.ndata = o.ndata := by
  cases ts with
  | nil => exact absurd rfl hne
  | cons t0 l =>
    refine ⟨⟨some ((t0 :: l).map (· - t0)), some alt, some spd, some roc, o.ndata⟩, ?_, rfl, rfl,
      rfl, rfl, rfl⟩
    unfold setTrajectory
    simp only
    rw [if_neg]
    · rintro ⟨h1, h2, h3⟩
      exact hl ⟨h1.symm, by rw [← h2, h1], by rw [← h3, ← h2, h1]⟩

theorem C62_empty_rejected_unchanged (o : Obj) (alt spd roc : List NR) :
    setTrajectory o [] alt spd roc = (.error .indexError, o) := rfl

/-- **C62, consequence.** After a rejected call the object is unusable: `phaselabel` raises
AttributeError if no trajectory was ever accepted, and otherwise IndexError as soon as the rejected
times span one whole window. -/
theorem C62_unusable_afterwards {o o' : Obj} {ts : List ℝ} {alt spd roc : List NR} {d : ℝ}
    (hset : setTrajectory o ts alt spd roc = (.error .runtimeError, o')) :
    (o.ndata = none → phaselabel o' d = .error .attributeError) ∧
    (o.ndata ≠ none → (∃ i, i < ts.length ∧ 1 ≤ window ts d i) →
      phaselabel o' d = .error .indexError) := by
  cases ts with
  | nil => simp [setTrajectory] at hset
  | cons t0 l =>
    unfold setTrajectory at hset
    simp only at hset
    split_ifs at hset with hl
    · simp at hset
    · obtain ⟨-, rfl⟩ := Prod.mk.inj hset
      constructor
      · intro h
        unfold phaselabel
        simp only [h]
      · intro h hex
        obtain ⟨m, hm⟩ := Option.ne_none_iff_exists'.1 h
        unfold phaselabel
        simp only [hm, Option.getD_some]
        have e : ((t0 :: l).map (· - t0)).map (fun t => ⌊t / d⌋) =
            (List.range (t0 :: l).length).map (window (t0 :: l) d) := by
          conv_lhs => rw [eq_map_getD (t0 :: l) 0]
          rw [List.map_map, List.map_map]
          rfl
        rw [e]
        generalize hn : (t0 :: l).length = n
        rw [hn] at hl hex
        have hn0 : 0 < n := by rw [← hn]; simp
        obtain ⟨i, hi, hwi⟩ := hex
        have hmax : 1 ≤ maxInt ((List.range n).map (window (t0 :: l) d)) :=
          hwi.trans ((maxInt_spec (by simp; omega)).2 _
            (List.mem_map.2 ⟨i, by simpa using hi, rfl⟩))
        obtain ⟨k, hk⟩ : ∃ k, (maxInt ((List.range n).map (window (t0 :: l) d))).toNat = k + 1 :=
          ⟨_, (Nat.succ_pred_eq_of_pos (by omega)).symm⟩
        rw [hk, List.range_succ_eq_map, List.foldlM_cons]
        have hstep : windowStep m ((List.range n).map (window (t0 :: l) d)) alt spd roc
            (List.replicate m .NA) 0 = .error .indexError := by
          unfold windowStep
          have hmem : ((0 : ℕ) : ℤ) ∈ (List.range n).map (window (t0 :: l) d) :=
            List.mem_map.2 ⟨0, by simpa using hn0, window_zero _ _⟩
          rw [if_pos hmem]
          have hlen : (((List.range n).map (window (t0 :: l) d)).map
              fun w => decide (w = ((0 : ℕ) : ℤ))).length = n := by simp
          unfold select
          dsimp only
          rw [hlen]
          by_cases c0 : n = (List.range m).length
          · rw [if_pos c0]
            by_cases c1 : n = alt.length
            · rw [if_pos c1]
              by_cases c2 : n = spd.length
              · rw [if_pos c2]
                by_cases c3 : n = roc.length
                · exact absurd ⟨c1, by omega, by omega⟩ hl
                · rw [if_neg c3]; rfl
              · rw [if_neg c2]; rfl
            · rw [if_neg c1]; rfl
          · rw [if_neg c0]; rfl
        rw [hstep]; rfl

/-! ## Phase indices -/

/-- **C63.** `flight_phase_indices` succeeds on every accepted trajectory. When a take-off is
detected, TO + 5 ≤ IC < CL - 1 and CL ≤ n; everything before CL is below 1500 ft and CL is the
end of the data or the first sample at 1500 ft or more; the last sample before CL is at 200 ft or
more and at most 300 s after TO. -/
theorem C63_takeoff_indices (ts alt spd roc : List ℝ) (hne : ts ≠ [])
    (h1 : alt.length = ts.length) (h2 : spd.length = ts.length) (h3 : roc.length = ts.length) :
    ∃ r, flightPhaseIndices ts alt spd roc = .ok r ∧ ∀ a, r.TO = some a →
      ∃ b c, r.IC = some b ∧ r.CL = some c ∧ a + 5 ≤ b ∧ b + 1 < c ∧ c ≤ ts.length ∧
        (∀ j, j < c → alt.getD j 0 < 1500) ∧ (c = ts.length ∨ 1500 ≤ alt.getD c 0) ∧
        200 ≤ alt.getD (c - 1) 0 ∧ ts.getD (c - 1) 0 - ts.getD a 0 ≤ 300 ∧
        10 < |alt.getD b 0 - alt.getD (b - 1) 0| ∧
        ((∀ j, a ≤ j → j + 1 < c → 5 ≤ spd.getD j 0) ∨ (a = 0 ∧ spd.getD (c - 2) 0 < 30)) := by
  obtain ⟨t0, l, rfl⟩ : ∃ t0 l, ts = t0 :: l := by
    cases ts with
    | nil => exact absurd rfl hne
    | cons t0 l => exact ⟨t0, l, rfl⟩
  have hset : setTrajectory {} (t0 :: l) (alt.map .val) (spd.map .val) (roc.map .val) =
      (.ok (), ⟨some ((t0 :: l).map (· - t0)), some (alt.map .val), some (spd.map .val),
        some (roc.map .val), some (t0 :: l).length⟩) := by
    unfold setTrajectory
    simp only [List.length_map]
    rw [if_pos ⟨h1.symm, by rw [h1, h2], by rw [h2, h3]⟩]
  obtain ⟨hl, -⟩ := phaselabel_eq 60 hset
  unfold flightPhaseIndices
  rw [hset]
  simp only [bind, Except.bind, pure, Except.pure, hl]
  refine ⟨_, rfl, ?_⟩
  simp only [Option.getD_some]
  intro a ha
  obtain ⟨⟨a', b, c⟩, ht, rfl⟩ := Option.map_eq_some_iff.1 ha
  rw [ht]
  refine ⟨b, c, rfl, rfl, ?_⟩
  unfold getToIc at ht
  simp only at ht
  generalize he : lowPrefix alt 0 0 = e at ht
  generalize hs : toStart spd e 0 (spd.getD e 0) = s at ht
  split_ifs at ht with c1 c2 c3 c4
  obtain ⟨rfl, hq⟩ := Prod.mk.inj (Option.some.inj ht)
  obtain ⟨hb, rfl⟩ := Prod.mk.inj hq
  rw [hb] at c4
  push Not at c1 c2 c3 c4
  rcases lowPrefix_spec alt 0 0 with ⟨q1, -⟩ | ⟨k, q1, q2, q3, q4⟩
  · rw [he] at q1; omega
  rw [he, zero_add] at q1
  subst q1
  have hbs : b ≠ s := by omega
  have hfind : ∃ x, ((List.range' (s + 1) (e - (s + 1))).find?
      fun i => decide (10 < |alt.getD i 0 - alt.getD (i - 1) 0|)) = some x ∧ x = b := by
    rcases hf : ((List.range' (s + 1) (e - (s + 1))).find?
      fun i => decide (10 < |alt.getD i 0 - alt.getD (i - 1) 0|)) with _ | x
    · rw [hf] at hb; exact absurd hb.symm hbs
    · rw [hf] at hb; exact ⟨x, rfl, hb⟩
  obtain ⟨x, hx, rfl⟩ := hfind
  have hx1 := List.mem_range'_1.1 (List.mem_of_find?_eq_some hx)
  have hx2 := List.find?_some hx
  have tsh : ∀ j, j < (t0 :: l).length →
      ((t0 :: l).map (· - t0)).getD j 0 = (t0 :: l).getD j 0 - t0 := by
    intro j hj
    rw [List.getD_eq_getElem?_getD, List.getElem?_map, List.getD_eq_getElem?_getD,
      List.getElem?_eq_getElem hj]
    rfl
  have c1' := c1
  rw [tsh e (by omega), tsh s (by omega)] at c1'
  refine ⟨by omega, by omega, by omega, fun j hj => q3 j (by omega), ?_, by simpa using c3, ?_, ?_, ?_⟩
  · rcases q4 with q4 | q4
    · left; omega
    · right; exact q4
  · rw [Nat.add_sub_cancel]; linarith
  · simpa using hx2
  · rcases toStart_spec spd e 0 (spd.getD e 0) with ⟨r1, r2⟩ | ⟨-, r2⟩
    · right
      rw [hs] at r1
      refine ⟨r1, ?_⟩
      rcases r2 with r2 | r2
      · omega
      · exact r2
    · left
      rw [hs] at r2
      exact fun j hj hj' => r2 j hj (by omega)

/-- **C63, landing.** When a landing is detected, FA + 5 ≤ LD, LD + 5 < END ≤ n, the altitude at FA
is 100 ft or more, and the speed is at least 30 kt from FA to END. Either the data end below 1500 ft
and FA starts the final run below 1500 ft, or the data end at 1500 ft or more and FA = 0. -/
theorem C63_landing_indices (ts alt spd roc : List ℝ) (r : Indices)
    (h1 : alt.length = ts.length)
    (hr : flightPhaseIndices ts alt spd roc = .ok r) (b : ℕ) (hb : r.LD = some b) :
    ∃ a, r.FA = some a ∧ a + 5 ≤ b ∧ b + 5 < r.END ∧ r.END ≤ ts.length ∧
      100 ≤ alt.getD a 0 ∧ 10 < |alt.getD b 0 - alt.getD (b + 1) 0| ∧
      (∀ j, a ≤ j → j < r.END → 30 ≤ spd.getD j 0) ∧
      (((∀ j, a ≤ j → j < ts.length → alt.getD j 0 < 1500) ∧
          (a = 0 ∨ 1500 ≤ alt.getD (a - 1) 0)) ∨
        (1500 ≤ alt.getD (ts.length - 1) 0 ∧ a = 0)) := by
  unfold flightPhaseIndices at hr
  simp only [bind, Except.bind, pure, Except.pure] at hr
  rcases hset : setTrajectory {} ts (alt.map .val) (spd.map .val) (roc.map .val) with ⟨res, o⟩
  rw [hset] at hr
  rcases res with e | u
  · simp at hr
  simp only at hr
  rcases hl : phaselabel o with e | labels
  · rw [hl] at hr; simp at hr
  rw [hl] at hr
  obtain rfl := (Except.ok.inj hr).symm
  simp only at hb ⊢
  obtain ⟨⟨a, b', c⟩, ht, rfl⟩ := Option.map_eq_some_iff.1 hb
  rw [ht]
  simp only
  refine ⟨a, rfl, ?_⟩
  unfold getFaLd at ht
  simp only at ht
  generalize hs : lowSuffix alt alt.length 0 = s at ht
  generalize he : ldEnd spd (alt.length - s) s 0 (spd.getD s 0) = e at ht
  split_ifs at ht with c1 c2
  obtain ⟨rfl, hq⟩ := Prod.mk.inj (Option.some.inj ht)
  obtain ⟨hb', rfl⟩ := Prod.mk.inj hq
  rw [hb'] at c2
  push Not at c1 c2
  have hsl : s ≤ alt.length := by
    rcases lowSuffix_spec alt alt.length 0 with ⟨q1, -⟩ | ⟨q1, -⟩ <;> rw [hs] at q1 <;> omega
  have hfind : ∃ x, ((List.range' s (e - 1 - s)).reverse.find?
      fun i => decide (10 < |alt.getD i 0 - alt.getD (i + 1) 0|)) = some x ∧ x = b' := by
    rcases hf : ((List.range' s (e - 1 - s)).reverse.find?
      fun i => decide (10 < |alt.getD i 0 - alt.getD (i + 1) 0|)) with _ | x
    · rw [hf] at hb'
      have : b' = e := hb'.symm
      omega
    · rw [hf] at hb'; exact ⟨x, rfl, hb'⟩
  obtain ⟨x, hx, rfl⟩ := hfind
  have hx2 := List.find?_some hx
  rcases ldEnd_spec spd (alt.length - s) s 0 (spd.getD s 0) with q | ⟨q1, q2, q3⟩
  · rw [he] at q; omega
  rw [he] at q1 q2 q3
  refine ⟨by omega, by omega, by omega, c1, by simpa using hx2,
    fun j hj hj' => q3 j hj (by omega), ?_⟩
  rcases lowSuffix_spec alt alt.length 0 with ⟨p1, p2⟩ | ⟨p1, p2, p3⟩
  · right
    rw [hs] at p1
    rw [← h1]
    exact ⟨p2.resolve_left (by omega), p1⟩
  · left
    rw [hs] at p2 p3
    exact ⟨fun j hj hj' => p2 j hj (by omega), p3⟩

/-- **C91.** A flight that is recorded from 100 ft or more up to a level of 1500 ft or more, ends
there, and never flies slower than 50 kt, is reported as a landing: final approach at the first
sample, touch-down where the climb ends. -/
theorem C91_climb_reported_as_landing (ts alt spd roc : List ℝ) (r : Indices)
    (hr : flightPhaseIndices ts alt spd roc = .ok r) (h2 : spd.length = alt.length)
    (hstart : 100 ≤ alt.getD 0 0) (hend : 1500 ≤ alt.getD (alt.length - 1) 0)
    (hspd : ∀ v ∈ spd, 50 < v) (j : ℕ) (hj : 5 ≤ j) (hj' : j + 5 < alt.length)
    (hclimb : 10 < |alt.getD j 0 - alt.getD (j + 1) 0|)
    (hlevel : ∀ i, j < i → i + 1 < alt.length → |alt.getD i 0 - alt.getD (i + 1) 0| ≤ 10) :
    r.FA = some 0 ∧ r.LD = some j ∧ r.END = alt.length := by
  have key : getFaLd alt spd = some (0, j, alt.length) := by
    unfold getFaLd
    simp only
    have hs : lowSuffix alt alt.length 0 = 0 := by
      obtain ⟨m, hm⟩ : ∃ m, alt.length = m + 1 := ⟨alt.length - 1, by omega⟩
      rw [hm, Nat.add_sub_cancel] at hend
      rw [hm, lowSuffix, if_neg (not_lt.2 hend)]
    rw [hs]
    have hv : ∀ i, i < alt.length → 50 < spd.getD i 0 := by
      intro i hi
      rw [List.getD_eq_getElem?_getD, List.getElem?_eq_getElem (by omega)]
      exact hspd _ (List.getElem_mem _)
    have he : ldEnd spd (alt.length - 0) 0 0 (spd.getD 0 0) = alt.length - 1 := by
      rw [ldEnd_fast spd (alt.length - 0) 0 0 _ (by omega) (fun i _ h => hv i (by omega))]
      omega
    rw [he, if_neg (not_lt.2 hstart)]
    have hf : ((List.range' 0 (alt.length - 1 - 1 - 0)).reverse.find?
        fun i => decide (10 < |alt.getD i 0 - alt.getD (i + 1) 0|)) = some j := by
      obtain ⟨m, hm⟩ : ∃ m, alt.length - 1 - 1 - 0 = j + 1 + m := ⟨_, (Nat.add_sub_of_le (by omega)).symm⟩
      rw [hm, ← List.range'_append_1 (s := 0) (m := j + 1) (n := m), List.reverse_append,
        List.find?_append]
      have : (List.range' (0 + (j + 1)) m).reverse.find?
          (fun i => decide (10 < |alt.getD i 0 - alt.getD (i + 1) 0|)) = none := by
        rw [List.find?_eq_none]
        intro i hi
        have := List.mem_range'_1.1 (List.mem_reverse.1 hi)
        simpa using hlevel i (by omega) (by omega)
      rw [this, List.range'_concat, List.reverse_append]
      simp only [List.reverse_cons, List.reverse_nil, List.nil_append, List.singleton_append,
        Option.none_or]
      rw [List.find?_cons_of_pos]
      · simp
      · simpa using hclimb
    rw [hf, Option.getD_some, if_neg (by omega)]
    congr 3
    omega
  unfold flightPhaseIndices at hr
  simp only [bind, Except.bind, pure, Except.pure] at hr
  rcases hset : setTrajectory {} ts (alt.map .val) (spd.map .val) (roc.map .val) with ⟨res, o⟩
  rw [hset] at hr
  rcases res with e | u
  · simp at hr
  simp only at hr
  rcases hl : phaselabel o with e | labels
  · rw [hl] at hr; simp at hr
  rw [hl] at hr
  obtain rfl := (Except.ok.inj hr).symm
  simp [key]

/-- A climb-out recorded from 500 ft at 150 kt: seven samples climbing 200 ft each, then level at
1700 ft. -/
example : ∃ r, flightPhaseIndices [0, 10, 20, 30, 40, 50, 60, 70, 80, 90, 100, 110]
      [500, 700, 900, 1100, 1300, 1500, 1700, 1700, 1700, 1700, 1700, 1700]
      (List.replicate 12 150) (List.replicate 12 1200) = .ok r ∧
    r.FA = some 0 ∧ r.LD = some 5 ∧ r.END = 12 := by
  obtain ⟨r, hr, -⟩ := C63_takeoff_indices [0, 10, 20, 30, 40, 50, 60, 70, 80, 90, 100, 110]
    [500, 700, 900, 1100, 1300, 1500, 1700, 1700, 1700, 1700, 1700, 1700]
    (List.replicate 12 150) (List.replicate 12 1200) (by simp) rfl rfl rfl
  refine ⟨r, hr, ?_⟩
  refine C91_climb_reported_as_landing _ _ _ _ r hr rfl (by norm_num) (by norm_num)
    (fun v hv => by rw [List.eq_of_mem_replicate hv]; norm_num) 5 (le_refl _) (by simp)
    (by norm_num) ?_
  intro i h1 h2
  simp only [List.length_cons, List.length_nil] at h2
  have : i = 6 ∨ i = 7 ∨ i = 8 ∨ i = 9 ∨ i = 10 := by omega
  rcases this with rfl | rfl | rfl | rfl | rfl <;> norm_num

end Verif.Props
