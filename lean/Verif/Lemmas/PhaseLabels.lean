import Verif.Lemmas.Phase

/-! Lemmas on the loop over time windows. -/

namespace Verif.Phase
open Verif Verif.Fuzzy Verif.PhaseSpec

theorem eq_map_getD {β : Type} (l : List β) (d : β) :
    l = (List.range l.length).map fun i => l.getD i d := by
  apply List.ext_getElem
  · simp
  · intro i h1 h2
    simp [List.getD_eq_getElem?_getD, h1]

theorem select_range {β : Type} (n : ℕ) (q : ℕ → Bool) (g : ℕ → β) :
    select ((List.range n).map q) ((List.range n).map g) =
      .ok (((List.range n).filter q).map g) := by
  unfold select
  rw [if_pos (by simp)]
  congr 1
  generalize List.range n = l
  induction l with
  | nil => rfl
  | cons i l ih =>
    simp only [List.map_cons, List.zip_cons_cons, List.filter_cons]
    cases q i
    · simpa using ih
    · simpa using ih

theorem foldl_add_val (l : List NR) : ∀ a : NR, (a = .nan ∨ ∃ y ∈ l, y = NR.nan) →
    l.foldl (· + ·) a = .nan := by
  induction l with
  | nil =>
    rintro a (rfl | ⟨y, hy, -⟩)
    · rfl
    · cases hy
  | cons x l ih =>
    rintro a (rfl | ⟨y, hy, rfl⟩)
    · apply ih; left; cases x <;> rfl
    · rcases List.mem_cons.1 hy with rfl | hy
      · apply ih; left; cases a <;> rfl
      · exact ih _ (Or.inr ⟨_, hy, rfl⟩)

theorem foldl_add_num (l : List NR) (h : ∀ y ∈ l, y ≠ NR.nan) : ∀ a : ℝ,
    l.foldl (· + ·) (NR.val a) = .val (a + (l.map number).sum) := by
  induction l with
  | nil => intro a; simp
  | cons x l ih =>
    intro a
    cases x with
    | nan => exact absurd rfl (h _ List.mem_cons_self)
    | val v =>
      have : (NR.val a : NR) + NR.val v = .val (a + v) := rfl
      rw [List.foldl_cons, this, ih (fun y hy => h y (List.mem_cons_of_mem _ hy))]
      simp [number, add_assoc]

theorem meanNR_eq (data : List NR) (n : ℕ) (q : ℕ → Prop) [DecidablePred q]
    (hne : ((Finset.range n).filter q).Nonempty) :
    meanNR (((List.range n).filter q).map fun i => data.getD i .nan) =
      PhaseSpec.mean data ((Finset.range n).filter q) := by
  have hcard : ((List.range n).filter q).length = ((Finset.range n).filter q).card := rfl
  have hmem : ∀ i, i ∈ (List.range n).filter q ↔ i ∈ (Finset.range n).filter q := by
    intro i; simp
  have hpos : ((((Finset.range n).filter q).card : ℕ) : ℝ) ≠ 0 := by
    exact_mod_cast (Finset.card_pos.2 hne).ne'
  unfold meanNR PhaseSpec.mean
  rw [List.length_map, hcard]
  split_ifs with h
  · obtain ⟨i, hi, e⟩ := h
    rw [foldl_add_val _ _ (Or.inr ⟨_, List.mem_map.2 ⟨i, (hmem i).2 hi, rfl⟩, e⟩)]
    rfl
  · have h' : ∀ y ∈ ((List.range n).filter q).map (fun i => data.getD i NR.nan), y ≠ NR.nan := by
      intro y hy e
      obtain ⟨i, hi, rfl⟩ := List.mem_map.1 hy
      exact h ⟨i, (hmem i).1 hi, e⟩
    rw [foldl_add_num _ h' 0]
    have hs : ((((List.range n).filter q).map fun i => data.getD i NR.nan).map number).sum =
        ∑ i ∈ (Finset.range n).filter q, number (data.getD i .nan) := by
      rw [List.map_map]; rfl
    rw [hs, zero_add]
    change (if (_ : ℝ) = 0 then NR.nan else NR.val _) = _
    rw [if_neg hpos]

/-- The strongest phase of a window. -/
noncomputable def winner (ts : List ℝ) (alt spd roc : List NR) (d : ℝ) (w : ℤ) : PhaseSpec.Phase :=
  Classical.choose (strongest_exists (strength (mean alt (members ts d w))
    (mean spd (members ts d w)) (mean roc (members ts d w))))

theorem winner_spec (ts : List ℝ) (alt spd roc : List NR) (d : ℝ) (w : ℤ) :
    WindowPhase ts alt spd roc d w (winner ts alt spd roc d w) :=
  Classical.choose_spec (strongest_exists _)

/-- Sample indices of window `w`, in order. -/
noncomputable def idx (ts : List ℝ) (d : ℝ) (w : ℤ) : List ℕ :=
  (List.range ts.length).filter fun i => decide (window ts d i = w)

/-- Effect of one turn of the loop. -/
noncomputable def turn (ts : List ℝ) (alt spd roc : List NR) (d : ℝ) (labels : List Label)
    (tw : ℕ) : List Label :=
  if idx ts d tw = [] then labels else
    sliceAssign labels ((idx ts d tw).headD 0) ((idx ts d tw).getLastD 0 + 1)
      (List.replicate (idx ts d tw).length (lab (winner ts alt spd roc d tw)))

theorem windowStep_eq {ts : List ℝ} {alt spd roc : List NR} (d : ℝ)
    (h1 : alt.length = ts.length) (h2 : spd.length = ts.length) (h3 : roc.length = ts.length)
    (labels : List Label) (tw : ℕ) :
    windowStep ts.length ((List.range ts.length).map (window ts d)) alt spd roc labels tw =
      .ok (turn ts alt spd roc d labels tw) := by
  unfold windowStep turn
  by_cases h : (tw : ℤ) ∈ (List.range ts.length).map (window ts d)
  · rw [if_pos h]
    have hne : idx ts d tw ≠ [] := by
      obtain ⟨i, hi, e⟩ := List.mem_map.1 h
      apply List.ne_nil_of_mem (a := i)
      exact List.mem_filter.2 ⟨hi, by simpa using e⟩
    have hne' : ((Finset.range ts.length).filter fun i => window ts d i = tw).Nonempty := by
      obtain ⟨i, hi, e⟩ := List.mem_map.1 h
      exact ⟨i, Finset.mem_filter.2 ⟨by simpa using hi, e⟩⟩
    have hm : ((List.range ts.length).map (window ts d)).map (fun w => decide (w = (tw : ℤ))) =
        (List.range ts.length).map fun i => decide (window ts d i = (tw : ℤ)) := by
      rw [List.map_map]; rfl
    have s0 : select ((List.range ts.length).map fun i => decide (window ts d i = (tw : ℤ)))
        (List.range ts.length) = .ok (idx ts d tw) := by
      have := select_range ts.length (fun i => decide (window ts d i = (tw : ℤ))) id
      simpa [idx] using this
    have s1 : ∀ data : List NR, data.length = ts.length →
        select ((List.range ts.length).map fun i => decide (window ts d i = (tw : ℤ))) data =
          .ok ((idx ts d tw).map fun i => data.getD i .nan) := by
      intro data hd
      have := select_range ts.length (fun i => decide (window ts d i = (tw : ℤ)))
        (fun i => data.getD i NR.nan)
      rw [← hd, ← eq_map_getD data NR.nan, hd] at this
      exact this
    have hM : ∀ data : List NR, meanNR ((idx ts d tw).map fun i => data.getD i .nan) =
        PhaseSpec.mean data (members ts d tw) := by
      intro data
      exact meanNR_eq data ts.length (fun i => window ts d i = (tw : ℤ)) hne'
    simp only [hm, s0, s1 alt h1, s1 spd h2, s1 roc h3, bind, Except.bind, pure, Except.pure, hM,
      windowLabel_eq (winner_spec ts alt spd roc d tw)]
    rw [if_pos (List.length_pos_of_ne_nil hne), if_neg hne]
  · rw [if_neg h, if_pos]
    · rfl
    · rw [idx, List.filter_eq_nil_iff]
      intro i hi e
      exact h (List.mem_map.2 ⟨i, hi, by simpa using e⟩)

theorem foldlM_ok {β γ : Type} (f : γ → β → Except PyError γ) (g : γ → β → γ)
    (h : ∀ c b, f c b = .ok (g c b)) (l : List β) : ∀ c, l.foldlM f c = .ok (l.foldl g c) := by
  induction l with
  | nil => intro c; rfl
  | cons x l ih =>
    intro c
    rw [List.foldlM_cons, h]
    exact ih _

/-- `phaselabel` on an accepted trajectory is the plain fold over windows. -/
theorem phaselabel_eq {o o' : Obj} {ts : List ℝ} {alt spd roc : List NR} (d : ℝ)
    (hs : setTrajectory o ts alt spd roc = (.ok (), o')) :
    phaselabel o' d = .ok ((List.range
      (maxInt ((List.range ts.length).map (window ts d))).toNat).foldl
        (turn ts alt spd roc d) (List.replicate ts.length .NA)) ∧
    ts ≠ [] ∧ alt.length = ts.length ∧ spd.length = ts.length ∧ roc.length = ts.length := by
  cases ts with
  | nil => simp [setTrajectory] at hs
  | cons t0 l =>
    unfold setTrajectory at hs
    simp only at hs
    split_ifs at hs with hl
    · obtain ⟨-, rfl⟩ := Prod.mk.inj hs
      refine ⟨?_, by simp, hl.1.symm, by rw [← hl.2.1, hl.1], by rw [← hl.2.2, ← hl.2.1, hl.1]⟩
      unfold phaselabel
      simp only [Option.getD_some]
      have e : ((t0 :: l).map (· - t0)).map (fun t => ⌊t / d⌋) =
          (List.range (t0 :: l).length).map (window (t0 :: l) d) := by
        conv_lhs => rw [eq_map_getD (t0 :: l) 0]
        rw [List.map_map, List.map_map]
        rfl
      rw [e]
      exact foldlM_ok _ _ (windowStep_eq d hl.1.symm (by rw [← hl.2.1, hl.1])
        (by rw [← hl.2.2, ← hl.2.1, hl.1])) _ _
    · simp at hs

/-! ### Number of labels -/

theorem idx_bounds {ts : List ℝ} {d : ℝ} {w : ℤ} (h : idx ts d w ≠ []) :
    (idx ts d w).headD 0 + (idx ts d w).length ≤ (idx ts d w).getLastD 0 + 1 ∧
    (idx ts d w).getLastD 0 < ts.length := by
  have hp : (idx ts d w).Pairwise (· < ·) := List.Pairwise.filter _ List.pairwise_lt_range
  have hb : ∀ i ∈ idx ts d w, i < ts.length := fun i hi => by
    have := (List.mem_filter.1 hi).1
    simpa using this
  revert hp hb h
  generalize idx ts d w = l
  intro h hp hb
  constructor
  · clear hb
    induction l with
    | nil => exact absurd rfl h
    | cons a l ih =>
      cases l with
      | nil => simp
      | cons b l =>
        have := ih (by simp) hp.of_cons
        have hab : a < b := (List.pairwise_cons.1 hp).1 b List.mem_cons_self
        simp only [List.headD_cons, List.length_cons, List.getLastD_cons] at this ⊢
        omega
  · apply hb
    cases l with
    | nil => exact absurd rfl h
    | cons a l => rw [List.getLastD_cons]; exact List.getLastD_mem_cons ..

theorem turn_length {ts : List ℝ} {alt spd roc : List NR} {d : ℝ} {labels : List Label}
    (h : labels.length ≤ ts.length) (tw : ℕ) :
    (turn ts alt spd roc d labels tw).length ≤ ts.length := by
  unfold turn
  split_ifs with hn
  · exact h
  · obtain ⟨h1, h2⟩ := idx_bounds hn
    unfold sliceAssign
    simp only [List.length_append, List.length_take, List.length_drop, List.length_replicate]
    omega

theorem fold_length {ts : List ℝ} {alt spd roc : List NR} {d : ℝ} (l : List ℕ) :
    ∀ labels : List Label, labels.length ≤ ts.length →
    (l.foldl (turn ts alt spd roc d) labels).length ≤ ts.length := by
  induction l with
  | nil => intro labels h; exact h
  | cons w l ih => intro labels h; exact ih _ (turn_length h w)

/-! ### Sorted times -/

theorem window_zero (ts : List ℝ) (d : ℝ) : window ts d 0 = 0 := by simp [window]

theorem window_mono {ts : List ℝ} {d : ℝ} (hd : 0 < d) (hs : ts.Pairwise (· ≤ ·)) {i j : ℕ}
    (hij : i ≤ j) (hj : j < ts.length) : window ts d i ≤ window ts d j := by
  unfold window
  apply Int.floor_le_floor
  apply div_le_div_of_nonneg_right _ hd.le
  have : ts.getD i 0 ≤ ts.getD j 0 := by
    rcases hij.eq_or_lt with rfl | hij
    · exact le_refl _
    · have := List.pairwise_iff_getElem.1 hs i j (by omega) hj hij
      simpa [List.getD_eq_getElem?_getD, hj, (by omega : i < ts.length)] using this
  linarith

theorem foldl_max_int (l : List ℤ) : ∀ x, x ≤ l.foldl max x ∧ (∀ y ∈ l, y ≤ l.foldl max x) ∧
    (l.foldl max x = x ∨ l.foldl max x ∈ l) := by
  induction l with
  | nil => intro x; simp
  | cons z l ih =>
    intro x
    obtain ⟨h1, h2, h3⟩ := ih (max x z)
    refine ⟨(le_max_left _ _).trans h1, ?_, ?_⟩
    · intro y hy
      rcases List.mem_cons.1 hy with rfl | hy
      · exact (le_max_right _ _).trans h1
      · exact h2 y hy
    · rcases h3 with h3 | h3
      · simp only [List.foldl_cons]
        rw [h3]
        rcases max_choice x z with h | h
        · left; exact h
        · right; rw [h]; exact List.mem_cons_self
      · right; exact List.mem_cons_of_mem _ h3

theorem maxInt_spec {l : List ℤ} (h : l ≠ []) : maxInt l ∈ l ∧ ∀ y ∈ l, y ≤ maxInt l := by
  cases l with
  | nil => exact absurd rfl h
  | cons x l =>
    obtain ⟨h1, h2, h3⟩ := foldl_max_int l x
    constructor
    · rcases h3 with e | e
      · show l.foldl max x ∈ _; rw [e]; exact List.mem_cons_self
      · exact List.mem_cons_of_mem _ e
    · intro y hy
      rcases List.mem_cons.1 hy with rfl | hy
      · exact h1
      · exact h2 y hy

theorem filter_interval {n a c : ℕ} {p : ℕ → Bool} (hn : a + c ≤ n)
    (hp : ∀ i, i < n → (p i = true ↔ a ≤ i ∧ i < a + c)) :
    (List.range n).filter p = List.range' a c := by
  obtain ⟨e, rfl⟩ := Nat.exists_eq_add_of_le hn
  have hr : List.range (a + c + e) = List.range' 0 a ++ (List.range' a c ++ List.range' (a + c) e) := by
    rw [List.range_eq_range', ← List.range'_append_1 (s := 0) (m := a + c) (n := e),
      ← List.range'_append_1 (s := 0) (m := a) (n := c)]
    simp
  rw [hr, List.filter_append, List.filter_append]
  have h1 : (List.range' 0 a).filter p = [] := by
    rw [List.filter_eq_nil_iff]
    intro i hi
    rw [List.mem_range'_1] at hi
    rw [hp i (by omega)]; omega
  have h2 : (List.range' a c).filter p = List.range' a c := by
    rw [List.filter_eq_self]
    intro i hi
    rw [List.mem_range'_1] at hi
    rw [hp i (by omega)]; omega
  have h3 : (List.range' (a + c) e).filter p = [] := by
    rw [List.filter_eq_nil_iff]
    intro i hi
    rw [List.mem_range'_1] at hi
    rw [hp i (by omega)]; omega
  rw [h1, h2, h3]; simp

theorem idx_interval {ts : List ℝ} {d : ℝ} (hd : 0 < d) (hs : ts.Pairwise (· ≤ ·)) {w : ℤ}
    (h : idx ts d w ≠ []) : ∃ a c, 0 < c ∧ a + c ≤ ts.length ∧ idx ts d w = List.range' a c ∧
      ∀ i, i < ts.length → (window ts d i = w ↔ a ≤ i ∧ i < a + c) := by
  have hmem : ∀ i, i ∈ idx ts d w ↔ i < ts.length ∧ window ts d i = w := by
    intro i; simp [idx]
  have hne : ((Finset.range ts.length).filter fun i => window ts d i = w).Nonempty := by
    obtain ⟨i, hi⟩ := List.exists_mem_of_ne_nil _ h
    exact ⟨i, by simpa using (hmem i).1 hi⟩
  obtain ⟨a, ha, ha'⟩ := Finset.exists_min_image _ id hne
  obtain ⟨b, hb, hb'⟩ := Finset.exists_max_image _ id hne
  simp only [Finset.mem_filter, Finset.mem_range, id] at ha ha' hb hb'
  have hab := ha' b hb
  have key : ∀ i, i < ts.length → (window ts d i = w ↔ a ≤ i ∧ i < a + (b + 1 - a)) := by
    intro i hi
    constructor
    · intro e
      exact ⟨ha' i ⟨hi, e⟩, by have := hb' i ⟨hi, e⟩; omega⟩
    · rintro ⟨h1, h2⟩
      apply le_antisymm
      · rw [← hb.2]; exact window_mono hd hs (by omega) hb.1
      · rw [← ha.2]; exact window_mono hd hs h1 hi
  refine ⟨a, b + 1 - a, by omega, by omega, ?_, key⟩
  apply filter_interval (by omega)
  intro i hi
  rw [decide_eq_true_eq]
  exact key i hi

theorem sliceAssign_map {β : Type} {n a c : ℕ} (h : a + c ≤ n) (F G : ℕ → β) (v : β)
    (h1 : ∀ i, i < n → a ≤ i → i < a + c → G i = v)
    (h2 : ∀ i, i < n → ¬ (a ≤ i ∧ i < a + c) → G i = F i) :
    sliceAssign ((List.range n).map F) a (a + c) (List.replicate c v) = (List.range n).map G := by
  unfold sliceAssign
  rw [max_eq_right (by omega : a ≤ a + c)]
  apply List.ext_getElem
  · simp; omega
  · intro i hi hi'
    simp only [List.length_map, List.length_range] at hi'
    simp only [List.getElem_append, List.length_append, List.length_take, List.length_map,
      List.length_range, List.length_replicate, List.getElem_map, List.getElem_range]
    have hm : min a n = a := by omega
    split_ifs with c1 c2
    · rw [hm] at c2
      rw [List.getElem_take, List.getElem_map, List.getElem_range, h2 i hi' (by omega)]
    · rw [hm] at c1 c2
      rw [List.getElem_replicate, h1 i hi' (by omega) (by omega)]
    · rw [hm] at c1
      rw [List.getElem_drop, List.getElem_map, List.getElem_range]
      have : a + c + (i - (min a n + c)) = i := by rw [hm]; omega
      rw [this, h2 i hi' (by omega)]

/-- The labels once the windows below `m` are done. -/
noncomputable def upTo (ts : List ℝ) (alt spd roc : List NR) (d : ℝ) (m : ℕ) : List Label :=
  (List.range ts.length).map fun i =>
    if window ts d i < m then lab (winner ts alt spd roc d (window ts d i)) else .NA

theorem turn_sorted {ts : List ℝ} {alt spd roc : List NR} {d : ℝ} (hd : 0 < d)
    (hs : ts.Pairwise (· ≤ ·)) (m : ℕ) :
    turn ts alt spd roc d (upTo ts alt spd roc d m) m = upTo ts alt spd roc d (m + 1) := by
  unfold turn
  split_ifs with hn
  · unfold upTo
    apply List.map_congr_left
    intro i hi
    have hw : window ts d i ≠ (m : ℤ) := by
      intro e
      have : i ∈ idx ts d m := List.mem_filter.2 ⟨hi, by simpa using e⟩
      rw [hn] at this
      cases this
    by_cases c : window ts d i < m
    · rw [if_pos c, if_pos (by push_cast; omega)]
    · rw [if_neg c, if_neg (by push_cast; omega)]
  · obtain ⟨a, c, hc, hac, e, hi⟩ := idx_interval hd hs hn
    have h1 : (idx ts d m).headD 0 = a := by
      rw [e]; obtain ⟨c', rfl⟩ := Nat.exists_eq_add_of_lt hc
      simp [List.range'_succ]
    have h2 : (idx ts d m).getLastD 0 + 1 = a + c := by
      rw [e]; obtain ⟨c', rfl⟩ := Nat.exists_eq_add_of_lt hc
      rw [List.range'_concat]; simp; omega
    have h3 : (idx ts d m).length = c := by rw [e]; simp
    rw [h1, h2, h3]
    unfold upTo
    apply sliceAssign_map hac
    · intro i hi' h4 h5
      have := (hi i hi').2 ⟨h4, h5⟩
      rw [this, if_pos (by push_cast; omega)]
    · intro i hi' h4
      have : window ts d i ≠ m := fun e => h4 ((hi i hi').1 e)
      by_cases c : window ts d i < m
      · rw [if_pos c, if_pos (by push_cast; omega)]
      · rw [if_neg c, if_neg (by push_cast; omega)]

theorem fold_sorted {ts : List ℝ} {alt spd roc : List NR} {d : ℝ} (hd : 0 < d)
    (hs : ts.Pairwise (· ≤ ·)) (m : ℕ) :
    (List.range m).foldl (turn ts alt spd roc d) (List.replicate ts.length .NA) =
      upTo ts alt spd roc d m := by
  induction m with
  | zero =>
    unfold upTo
    apply List.ext_getElem
    · simp
    · intro i h1 h2
      simp only [List.length_map, List.length_range] at h2
      have : ¬ window ts d i < 0 := by
        have := window_mono hd hs (Nat.zero_le i) h2
        rw [window_zero] at this
        omega
      simp [this]
  | succ m ih =>
    rw [List.range_succ, List.foldl_append, ih]
    exact turn_sorted hd hs m

theorem maxInt_sorted {ts : List ℝ} {d : ℝ} (hd : 0 < d) (hs : ts.Pairwise (· ≤ ·))
    (hne : ts ≠ []) :
    maxInt ((List.range ts.length).map (window ts d)) = window ts d (ts.length - 1) := by
  have hl : 0 < ts.length := List.length_pos_of_ne_nil hne
  obtain ⟨h1, h2⟩ := maxInt_spec (l := (List.range ts.length).map (window ts d)) (by simpa using hne)
  apply le_antisymm
  · obtain ⟨i, hi, e⟩ := List.mem_map.1 h1
    rw [← e]
    have : i < ts.length := by simpa using hi
    exact window_mono hd hs (by omega) (by omega)
  · exact h2 _ (List.mem_map.2 ⟨_, by simpa using hl, rfl⟩)

end Verif.Phase
