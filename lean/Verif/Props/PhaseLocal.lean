import Verif.Props.Phase
import Mathlib.Tactic.IntervalCases

/-!
# C126: what a phase label depends on
-/

namespace Verif.Props
open Verif Verif.Phase Verif.PhaseSpec

/-- **C126 (origin of time).** Only time differences matter: adding one number to all time stamps
changes neither the outcome of `set_trajectory`, nor any later `phaselabel`, nor
`flight_phase_indices`. Times need not be sorted and values may be missing. -/
theorem C126_time_shift (c : ℝ) (ts : List ℝ) :
    (∀ (o : Obj) (alt spd roc : List NR) (d : ℝ),
      (setTrajectory o (ts.map (· + c)) alt spd roc).1 = (setTrajectory o ts alt spd roc).1 ∧
      phaselabel (setTrajectory o (ts.map (· + c)) alt spd roc).2 d =
        phaselabel (setTrajectory o ts alt spd roc).2 d) ∧
    (∀ alt spd roc : List ℝ,
      flightPhaseIndices (ts.map (· + c)) alt spd roc = flightPhaseIndices ts alt spd roc) := by
  have key : ∀ (o : Obj) (alt spd roc : List NR),
      setTrajectory o (ts.map (· + c)) alt spd roc = setTrajectory o ts alt spd roc := by
    intro o alt spd roc
    cases ts with
    | nil => rfl
    | cons t0 l =>
      have e : ((t0 :: l).map (· + c)).map (· - (t0 + c)) = (t0 :: l).map (· - t0) := by
        rw [List.map_map]
        refine List.map_congr_left fun x _ => ?_
        show x + c - (t0 + c) = x - t0
        ring
      have hl : ((t0 :: l).map (· + c)).length = (t0 :: l).length := List.length_map _
      unfold setTrajectory
      simp only [List.map_cons] at e hl ⊢
      rw [e, hl]
  refine ⟨fun o alt spd roc d => by rw [key]; exact ⟨rfl, rfl⟩, fun alt spd roc => ?_⟩
  unfold flightPhaseIndices
  rw [key, List.length_map]

/-- Equal means in the two windows give equal labels. -/
theorem label_of_means {o o' p p' : Obj} {ts us : List ℝ} {alt spd roc alt' spd' roc' : List NR}
    {d e : ℝ} {labels labels' : List Label}
    (hset : setTrajectory o ts alt spd roc = (.ok (), o'))
    (hset' : setTrajectory p us alt' spd' roc' = (.ok (), p')) (hd : 0 < d) (he : 0 < e)
    (hs : ts.Pairwise (· ≤ ·)) (hs' : us.Pairwise (· ≤ ·))
    (hl : phaselabel o' d = .ok labels) (hl' : phaselabel p' e = .ok labels') {i j : ℕ}
    (hi : i < ts.length) (hj : j < us.length)
    (hw : window ts d i < window ts d (ts.length - 1))
    (hw' : window us e j < window us e (us.length - 1))
    (ha : mean alt (members ts d (window ts d i)) = mean alt' (members us e (window us e j)))
    (hv : mean spd (members ts d (window ts d i)) = mean spd' (members us e (window us e j)))
    (hr : mean roc (members ts d (window ts d i)) = mean roc' (members us e (window us e j))) :
    labels[i]? = labels'[j]? := by
  rw [label_at hset hd hs hl i hi, label_at hset' he hs' hl' j hj, if_pos hw, if_pos hw']
  have h1 := winner_spec ts alt spd roc d (window ts d i)
  have h2 := winner_spec us alt' spd' roc' e (window us e j)
  unfold WindowPhase at h1 h2
  rw [ha, hv, hr] at h1
  rw [strongest_unique h1 h2]

theorem mean_congr {data data' : List NR} {s t : Finset ℕ} (σ : ℕ → ℕ)
    (hσ : Set.BijOn σ s t) (h : ∀ k ∈ s, data[k]? = data'[σ k]?) :
    mean data s = mean data' t := by
  have hg : ∀ k ∈ s, data.getD k .nan = data'.getD (σ k) .nan := by
    intro k hk
    rw [List.getD_eq_getElem?_getD, List.getD_eq_getElem?_getD, h k hk]
  unfold PhaseSpec.mean
  have h1 : (∃ i ∈ s, data.getD i .nan = .nan) ↔ ∃ i ∈ t, data'.getD i .nan = .nan := by
    constructor
    · rintro ⟨i, hi, e⟩
      exact ⟨σ i, hσ.mapsTo hi, by rw [← hg i hi]; exact e⟩
    · rintro ⟨i, hi, e⟩
      obtain ⟨k, hk, rfl⟩ := hσ.surjOn hi
      exact ⟨k, hk, by rw [hg k hk]; exact e⟩
  have hcard : s.card = t.card :=
    Finset.card_nbij σ (fun a ha => hσ.mapsTo ha) hσ.injOn hσ.surjOn
  have hsum : ∑ i ∈ s, number (data.getD i .nan) = ∑ i ∈ t, number (data'.getD i .nan) :=
    Finset.sum_nbij σ (fun a ha => hσ.mapsTo ha) hσ.injOn hσ.surjOn
      fun a ha => by rw [hg a ha]
  by_cases hx : ∃ i ∈ s, data.getD i .nan = .nan
  · rw [if_pos hx, if_pos (h1.1 hx)]
  · rw [if_neg hx, if_neg fun h => hx (h1.2 h), hsum, hcard]

/-- **C126 (locality).** The label of a sample is decided by the samples of its own time window
and by nothing else, and the order in which they come does not matter: if the samples of two
windows, possibly of two flights and with different window lengths, can be paired so that paired
samples agree in altitude, speed and vertical rate, both windows get the same label. (Windows
other than the last of their flight.) -/
theorem C126_local {o o' p p' : Obj} {ts us : List ℝ} {alt spd roc alt' spd' roc' : List NR}
    {d e : ℝ} {labels labels' : List Label}
    (hset : setTrajectory o ts alt spd roc = (.ok (), o'))
    (hset' : setTrajectory p us alt' spd' roc' = (.ok (), p')) (hd : 0 < d) (he : 0 < e)
    (hs : ts.Pairwise (· ≤ ·)) (hs' : us.Pairwise (· ≤ ·))
    (hl : phaselabel o' d = .ok labels) (hl' : phaselabel p' e = .ok labels') {i j : ℕ}
    (hi : i < ts.length) (hj : j < us.length)
    (hw : window ts d i < window ts d (ts.length - 1))
    (hw' : window us e j < window us e (us.length - 1)) (σ : ℕ → ℕ)
    (hσ : Set.BijOn σ {k | k < ts.length ∧ window ts d k = window ts d i}
      {k | k < us.length ∧ window us e k = window us e j})
    (hdata : ∀ k < ts.length, window ts d k = window ts d i →
      alt[k]? = alt'[σ k]? ∧ spd[k]? = spd'[σ k]? ∧ roc[k]? = roc'[σ k]?) :
    labels[i]? = labels'[j]? := by
  have hm : ∀ (ts : List ℝ) (d : ℝ) (w : ℤ),
      ((members ts d w : Finset ℕ) : Set ℕ) = {k | k < ts.length ∧ window ts d k = w} := by
    intro ts d w; ext k; simp [members]
  have hσ' : Set.BijOn σ (members ts d (window ts d i)) (members us e (window us e j)) := by
    rw [hm, hm]; exact hσ
  have hk : ∀ k ∈ members ts d (window ts d i), k < ts.length ∧ window ts d k = window ts d i := by
    intro k hk; simpa [members] using hk
  exact label_of_means hset hset' hd he hs hs' hl hl' hi hj hw hw'
    (mean_congr σ hσ' fun k h => (hdata k (hk k h).1 (hk k h).2).1)
    (mean_congr σ hσ' fun k h => (hdata k (hk k h).1 (hk k h).2).2.1)
    (mean_congr σ hσ' fun k h => (hdata k (hk k h).1 (hk k h).2).2.2)

/-- The first windows of two flights hold the same two samples in opposite order. -/
example {o' p' : Obj} {labels labels' : List Label}
    (h1 : setTrajectory {} [0, 30, 75] [.val 1000, .val 2000, .val 3000]
      [.val 200, .val 250, .val 280] [.val 1500, .nan, .val 1000] = (.ok (), o'))
    (h2 : setTrajectory {} [7, 8, 90] [.val 2000, .val 1000, .val 9000]
      [.val 250, .val 200, .val 300] [.nan, .val 1500, .val 0] = (.ok (), p'))
    (hl : phaselabel o' 60 = .ok labels) (hl' : phaselabel p' 45 = .ok labels') :
    labels[0]? = labels'[1]? := by
  refine C126_local h1 h2 (by norm_num) (by norm_num) (by simp; norm_num) (by simp; norm_num) hl hl'
    (by simp) (by simp) (by unfold window; norm_num) (by unfold window; norm_num) (fun k => 1 - k)
    ?_ ?_
  · have e1 : {k | k < ([0, 30, 75] : List ℝ).length ∧
        window [0, 30, 75] 60 k = window [0, 30, 75] 60 0} = {0, 1} := by
      ext k
      simp only [Set.mem_ofPred_eq, List.length_cons, List.length_nil, Set.mem_insert_iff,
        Set.mem_singleton_iff]
      constructor
      · rintro ⟨h, hw⟩
        interval_cases k
        · simp
        · simp
        · unfold window at hw; norm_num at hw
      · rintro (rfl | rfl) <;> (unfold window; norm_num)
    have e2 : {k | k < ([7, 8, 90] : List ℝ).length ∧
        window [7, 8, 90] 45 k = window [7, 8, 90] 45 1} = {0, 1} := by
      ext k
      simp only [Set.mem_ofPred_eq, List.length_cons, List.length_nil, Set.mem_insert_iff,
        Set.mem_singleton_iff]
      constructor
      · rintro ⟨h, hw⟩
        interval_cases k
        · simp
        · simp
        · unfold window at hw; norm_num at hw
      · rintro (rfl | rfl) <;> (unfold window; norm_num)
    rw [e1, e2]
    refine ⟨?_, ?_, ?_⟩
    · rintro k (rfl | rfl) <;> simp
    · rintro k (rfl | rfl) m (rfl | rfl) h <;> simp_all
    · rintro k (rfl | rfl)
      · exact ⟨1, by simp, rfl⟩
      · exact ⟨0, by simp, rfl⟩
  · intro k hk hw
    simp only [List.length_cons, List.length_nil] at hk
    interval_cases k
    · exact ⟨rfl, rfl, rfl⟩
    · exact ⟨rfl, rfl, rfl⟩
    · unfold window at hw; norm_num at hw

/-- **C126 (more data).** A label once given is final: labelling a recording again after further
samples have arrived changes no label except `NA`s. -/
theorem C126_append {o o' p p' : Obj} {ts ts₂ : List ℝ} {alt spd roc alt₂ spd₂ roc₂ : List NR}
    {d : ℝ} {labels labels' : List Label}
    (hset : setTrajectory o ts alt spd roc = (.ok (), o'))
    (hset' : setTrajectory p (ts ++ ts₂) (alt ++ alt₂) (spd ++ spd₂) (roc ++ roc₂) = (.ok (), p'))
    (hd : 0 < d) (hs : (ts ++ ts₂).Pairwise (· ≤ ·)) (hl : phaselabel o' d = .ok labels)
    (hl' : phaselabel p' d = .ok labels') (i : ℕ) (l : Label) (hi : labels[i]? = some l)
    (hna : l ≠ .NA) : labels'[i]? = some l := by
  have hs1 : ts.Pairwise (· ≤ ·) := (List.pairwise_append.1 hs).1
  obtain ⟨h1, hne, ha, hv, hr⟩ := phaselabel_eq d hset
  have hlen : labels.length = ts.length := by
    obtain ⟨x, hx, hxl⟩ := C58_one_label_per_sample hset hd hs1
    rw [hl] at hx; rw [Except.ok.inj hx]; exact hxl
  have hil : i < ts.length := by
    rw [← hlen]
    by_contra h
    rw [List.getElem?_eq_none (by omega)] at hi
    cases hi
  have hpos : 0 < ts.length := by omega
  have hget : ∀ k < ts.length, (ts ++ ts₂).getD k 0 = ts.getD k 0 := by
    intro k hk
    rw [List.getD_eq_getElem?_getD, List.getD_eq_getElem?_getD, List.getElem?_append_left hk]
  have hwin : ∀ k < ts.length, window (ts ++ ts₂) d k = window ts d k := by
    intro k hk
    unfold window
    rw [hget k hk, hget 0 hpos]
  have hw : window ts d i < window ts d (ts.length - 1) := by
    by_contra h
    rw [label_at hset hd hs1 hl i hil, if_neg h] at hi
    exact hna (Option.some.inj hi).symm
  have hlt : ts.length ≤ (ts ++ ts₂).length := by simp
  have hge : ∀ k, ts.length ≤ k → k < (ts ++ ts₂).length →
      window ts d (ts.length - 1) ≤ window (ts ++ ts₂) d k := by
    intro k h1 h2
    rw [← hwin _ (by omega : ts.length - 1 < ts.length)]
    exact window_mono hd hs (by omega) h2
  have hw' : window (ts ++ ts₂) d i < window (ts ++ ts₂) d ((ts ++ ts₂).length - 1) := by
    rw [hwin i hil]
    refine hw.trans_le ?_
    rcases Nat.lt_or_ge ((ts ++ ts₂).length - 1) ts.length with h | h
    · have : (ts ++ ts₂).length - 1 = ts.length - 1 := by omega
      rw [this, hwin _ (by omega)]
    · exact hge _ h (by omega)
  rw [← hi]
  refine (C126_local hset hset' hd hd hs1 hs hl hl' hil (hil.trans_le hlt) hw hw' id ?_ ?_).symm
  · have : {k | k < ts.length ∧ window ts d k = window ts d i} =
        {k | k < (ts ++ ts₂).length ∧ window (ts ++ ts₂) d k = window (ts ++ ts₂) d i} := by
      ext k
      simp only [Set.mem_ofPred_eq]
      constructor
      · rintro ⟨h1, h2⟩
        exact ⟨h1.trans_le hlt, by rw [hwin k h1, hwin i hil]; exact h2⟩
      · rintro ⟨h1, h2⟩
        rw [hwin i hil] at h2
        rcases Nat.lt_or_ge k ts.length with h | h
        · exact ⟨h, by rw [← hwin k h]; exact h2⟩
        · have := hge k h h1
          omega
    rw [this]
    exact Set.bijOn_id _
  · intro k hk _
    simp only [id]
    rw [List.getElem?_append_left (by omega), List.getElem?_append_left (by omega),
      List.getElem?_append_left (by omega)]
    exact ⟨rfl, rfl, rfl⟩

/-- A window with a missing altitude is labelled LVL, and stays so when a fourth sample arrives. -/
example : ∃ o' p' labels labels',
    setTrajectory {} [10, 40, 75] [.val 0, .nan, .val 0] [.val 0, .val 0, .val 0]
      [.val 0, .val 0, .val 0] = (.ok (), o') ∧
    setTrajectory {} ([10, 40, 75] ++ [200]) ([.val 0, .nan, .val 0] ++ [.val 900])
      ([.val 0, .val 0, .val 0] ++ [.val 150]) ([.val 0, .val 0, .val 0] ++ [.val 2000]) =
      (.ok (), p') ∧
    phaselabel o' 60 = .ok labels ∧ phaselabel p' 60 = .ok labels' ∧
    labels[0]? = some .LVL ∧ labels'[0]? = some .LVL := by
  have hs : (([10, 40, 75] : List ℝ) ++ [200]).Pairwise (· ≤ ·) := by simp; norm_num
  have hs1 : ([10, 40, 75] : List ℝ).Pairwise (· ≤ ·) := by simp; norm_num
  have h1 : setTrajectory {} [10, 40, 75] [.val 0, .nan, .val 0] [.val 0, .val 0, .val 0]
      [.val 0, .val 0, .val 0] = (.ok (), _) := rfl
  have h2 : setTrajectory {} ([10, 40, 75] ++ [200]) ([.val 0, .nan, .val 0] ++ [.val 900])
      ([.val 0, .val 0, .val 0] ++ [.val 150]) ([.val 0, .val 0, .val 0] ++ [.val 2000]) =
      (.ok (), _) := rfl
  obtain ⟨labels, hl, -⟩ := C58_one_label_per_sample h1 (d := 60) (by norm_num) hs1
  obtain ⟨labels', hl', -⟩ := C58_one_label_per_sample h2 (d := 60) (by norm_num) hs
  have h3 : labels[0]? = some .LVL :=
    C59_missing_altitude h1 (by norm_num) hs1 hl 0 (by simp) (by unfold window; norm_num) 1
      (by simp) (by unfold window; norm_num) rfl
  exact ⟨_, _, labels, labels', h1, h2, hl, hl', h3,
    C126_append h1 h2 (by norm_num) hs hl hl' 0 .LVL h3 (by decide)⟩

/-- Every entry `k` times. -/
def repeated {β : Type} (k : ℕ) (l : List β) : List β := l.flatMap fun x => List.replicate k x

theorem repeated_length {β : Type} (k : ℕ) (l : List β) :
    (repeated k l).length = k * l.length := by
  simp [repeated, List.length_flatMap, Nat.mul_comm]

theorem repeated_get {β : Type} {k : ℕ} (hk : 0 < k) (l : List β) :
    ∀ i, (repeated k l)[i]? = l[i / k]? := by
  induction l with
  | nil => intro i; simp [repeated]
  | cons x l ih =>
    intro i
    have e : repeated k (x :: l) = List.replicate k x ++ repeated k l := by simp [repeated]
    rw [e]
    rcases Nat.lt_or_ge i k with h | h
    · rw [List.getElem?_append_left (by simpa using h), Nat.div_eq_of_lt h]
      simp [h]
    · rw [List.getElem?_append_right (by simpa using h), List.length_replicate, ih]
      have : i / k = (i - k) / k + 1 := by
        conv_lhs => rw [show i = (i - k) + k by omega]
        rw [Nat.add_div_right _ hk]
      rw [this, List.getElem?_cons_succ]

theorem repeated_getD {β : Type} {k : ℕ} (hk : 0 < k) (l : List β) (z : β) (i : ℕ) :
    (repeated k l).getD i z = l.getD (i / k) z := by
  rw [List.getD_eq_getElem?_getD, List.getD_eq_getElem?_getD, repeated_get hk]

theorem repeated_window {k : ℕ} (hk : 0 < k) (ts : List ℝ) (d : ℝ) (i : ℕ) :
    window (repeated k ts) d i = window ts d (i / k) := by
  unfold window
  rw [repeated_getD hk, repeated_getD hk, Nat.zero_div]

theorem repeated_members {k : ℕ} (hk : 0 < k) (ts : List ℝ) (d : ℝ) (w : ℤ) (i : ℕ) :
    i ∈ members (repeated k ts) d w ↔ i / k ∈ members ts d w := by
  simp only [members, Finset.mem_filter, Finset.mem_range, repeated_length, repeated_window hk]
  rw [Nat.div_lt_iff_lt_mul hk, Nat.mul_comm]

theorem fiber_card {k : ℕ} (hk : 0 < k) {s t : Finset ℕ} (h : ∀ i, i ∈ s ↔ i / k ∈ t) (j : ℕ)
    (hj : j ∈ t) : (s.filter fun i => i / k = j).card = k := by
  have : s.filter (fun i => i / k = j) = Finset.Ico (j * k) (j * k + k) := by
    ext i
    rw [Finset.mem_filter, Finset.mem_Ico, h]
    constructor
    · rintro ⟨-, rfl⟩
      exact ⟨Nat.div_mul_le_self i k, by
        have := Nat.lt_div_mul_add hk (a := i)
        omega⟩
    · rintro ⟨h1, h2⟩
      have : i / k = j := by
        rw [Nat.div_eq_iff hk]
        omega
      exact ⟨by rw [this]; exact hj, this⟩
  rw [this, Nat.card_Ico]; omega

theorem repeated_mean {k : ℕ} (hk : 0 < k) (data : List NR) {s t : Finset ℕ}
    (h : ∀ i, i ∈ s ↔ i / k ∈ t) : mean (repeated k data) s = mean data t := by
  have h1 : (∃ i ∈ s, (repeated k data).getD i .nan = .nan) ↔ ∃ i ∈ t, data.getD i .nan = .nan := by
    constructor
    · rintro ⟨i, hi, e⟩
      exact ⟨i / k, (h i).1 hi, by rw [← repeated_getD hk]; exact e⟩
    · rintro ⟨i, hi, e⟩
      have hik : i * k / k = i := Nat.mul_div_cancel _ hk
      exact ⟨i * k, (h _).2 (by rw [hik]; exact hi), by rw [repeated_getD hk, hik]; exact e⟩
  have hmaps : ∀ i ∈ s, i / k ∈ t := fun i hi => (h i).1 hi
  have hsum : ∑ i ∈ s, number ((repeated k data).getD i .nan) =
      k * ∑ i ∈ t, number (data.getD i .nan) := by
    rw [← Finset.sum_fiberwise_of_maps_to hmaps, Finset.mul_sum]
    refine Finset.sum_congr rfl fun j hj => ?_
    rw [Finset.sum_congr rfl (g := fun _ => number (data.getD j .nan))]
    · rw [Finset.sum_const, fiber_card hk h j hj, nsmul_eq_mul]
    · intro i hi
      rw [repeated_getD hk, (Finset.mem_filter.1 hi).2]
  have hcard : s.card = k * t.card := by
    rw [Finset.card_eq_sum_card_fiberwise hmaps,
      Finset.sum_congr rfl fun j hj => fiber_card hk h j hj, Finset.sum_const, smul_eq_mul,
      Nat.mul_comm]
  have hk' : (k : ℝ) ≠ 0 := by exact_mod_cast hk.ne'
  unfold PhaseSpec.mean
  by_cases hx : ∃ i ∈ t, data.getD i .nan = .nan
  · rw [if_pos hx, if_pos (h1.2 hx)]
  · rw [if_neg hx, if_neg fun h => hx (h1.1 h), hsum, hcard, Nat.cast_mul,
      mul_div_mul_left _ _ hk']

/-- **C126 (repeated samples).** Receiving every sample `k` times (`k ≥ 1`) instead of once gives
every label `k` times. -/
theorem C126_repeated {o o' p p' : Obj} {ts : List ℝ} {alt spd roc : List NR} {d : ℝ}
    {labels labels' : List Label} (k : ℕ) (hk : 0 < k)
    (hset : setTrajectory o ts alt spd roc = (.ok (), o'))
    (hset' : setTrajectory p (repeated k ts) (repeated k alt) (repeated k spd) (repeated k roc) =
      (.ok (), p')) (hd : 0 < d) (hs : ts.Pairwise (· ≤ ·)) (hl : phaselabel o' d = .ok labels)
    (hl' : phaselabel p' d = .ok labels') : labels' = repeated k labels := by
  have hs' : (repeated k ts).Pairwise (· ≤ ·) := by
    rw [List.pairwise_iff_getElem] at hs ⊢
    intro i j hi hj hij
    have e1 := repeated_get hk ts i
    have e2 := repeated_get hk ts j
    rw [repeated_length] at hi hj
    have hi' : i / k < ts.length := by rw [Nat.div_lt_iff_lt_mul hk, Nat.mul_comm]; exact hi
    have hj' : j / k < ts.length := by rw [Nat.div_lt_iff_lt_mul hk, Nat.mul_comm]; exact hj
    rw [List.getElem?_eq_getElem (by rw [repeated_length]; exact hi),
      List.getElem?_eq_getElem hi'] at e1
    rw [List.getElem?_eq_getElem (by rw [repeated_length]; exact hj),
      List.getElem?_eq_getElem hj'] at e2
    rw [Option.some.inj e1, Option.some.inj e2]
    rcases (Nat.div_le_div_right (c := k) hij.le).lt_or_eq with h | h
    · exact hs _ _ hi' hj' h
    · simp only [h]; exact le_refl _
  obtain ⟨-, hne, -⟩ := phaselabel_eq d hset
  have hpos : 0 < ts.length := List.length_pos_iff.2 hne
  obtain ⟨x, hx, hxl⟩ := C58_one_label_per_sample hset hd hs
  obtain ⟨y, hy, hyl⟩ := C58_one_label_per_sample hset' hd hs'
  rw [hl] at hx; rw [hl'] at hy
  obtain rfl := Except.ok.inj hx
  obtain rfl := Except.ok.inj hy
  have hlast : ((repeated k ts).length - 1) / k = ts.length - 1 := by
    rw [repeated_length, Nat.div_eq_iff hk]
    obtain ⟨m, hm⟩ : ∃ m, ts.length = m + 1 := ⟨ts.length - 1, by omega⟩
    have : k * (m + 1) = m * k + k := by ring
    rw [hm, this, Nat.add_sub_cancel]
    omega
  refine List.ext_getElem? fun i => ?_
  rw [repeated_get hk]
  rcases Nat.lt_or_ge i (repeated k ts).length with hi | hi
  · have hi' : i / k < ts.length := by
      rw [Nat.div_lt_iff_lt_mul hk, Nat.mul_comm, ← repeated_length]; exact hi
    by_cases hw : window ts d (i / k) < window ts d (ts.length - 1)
    · have hw' : window (repeated k ts) d i <
          window (repeated k ts) d ((repeated k ts).length - 1) := by
        rw [repeated_window hk, repeated_window hk, hlast]; exact hw
      have hm := fun j => repeated_members hk ts d (window ts d (i / k)) j
      refine label_of_means hset' hset hd hd hs' hs hl' hl hi hi' hw' hw ?_ ?_ ?_ <;>
        rw [repeated_window hk] <;> exact repeated_mean hk _ hm
    · rw [label_at hset' hd hs' hl' i hi, label_at hset hd hs hl (i / k) hi', if_neg hw, if_neg]
      rw [repeated_window hk, repeated_window hk, hlast]; exact hw
  · rw [List.getElem?_eq_none (by omega), List.getElem?_eq_none]
    rw [hxl, Nat.le_div_iff_mul_le hk, Nat.mul_comm, ← repeated_length]; exact hi

/-- Two samples per second instead of one. -/
example : repeated 2 ([10, 40, 75] : List ℝ) = [10, 10, 40, 40, 75, 75] := rfl

/-- **C126 (unit of time).** Times and window length in another unit (a factor `c > 0`) give the
same labels; the data need not be sorted. -/
theorem C126_time_unit (o : Obj) (ts : List ℝ) (alt spd roc : List NR) (c d : ℝ) (hc : 0 < c) :
    phaselabel (setTrajectory o (ts.map (c * ·)) alt spd roc).2 (c * d) =
      phaselabel (setTrajectory o ts alt spd roc).2 d ∨ ts = [] := by
  cases ts with
  | nil => exact Or.inr rfl
  | cons t0 l =>
    left
    have e : (((t0 :: l).map (c * ·)).map (· - c * t0)).map (fun t => ⌊t / (c * d)⌋) =
        ((t0 :: l).map (· - t0)).map fun t => ⌊t / d⌋ := by
      rw [List.map_map, List.map_map, List.map_map]
      refine List.map_congr_left fun x _ => ?_
      show ⌊(c * x - c * t0) / (c * d)⌋ = ⌊(x - t0) / d⌋
      rw [← mul_sub, mul_div_mul_left _ _ hc.ne']
    have hl : ((t0 :: l).map (c * ·)).length = (t0 :: l).length := List.length_map _
    simp only [List.map_cons] at e hl
    unfold setTrajectory
    simp only [List.map_cons, hl]
    split_ifs
    · unfold phaselabel
      simp only [List.map_cons, e]
    · unfold phaselabel
      simp only [List.map_cons, e]

end Verif.Props
