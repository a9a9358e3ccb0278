import Verif.Lemmas.Twf

/-!
# C69, C95: the time-weighted filter
-/

namespace Verif.Props
open Verif Verif.Filters

/-- The sum of the reciprocal time gaps between the samples `i - w, …, i - 2`. -/
noncomputable def reciprocalGaps (X : List ℝ) (w i : ℕ) : ℝ :=
  ∑ j ∈ Finset.Ico (i - w) (i - 2), 1 / (X.getD (j + 1) 0 - X.getD j 0)

theorem sum_gaps {X : List ℝ} {v i : ℕ} (hi : v + 2 ≤ i) (G : ℕ → ℝ) :
    ∑ k ∈ Finset.range v, 1 / (X.getD (i - 2 - k) 0 - X.getD (i - 3 - k) 0) * G (i - 3 - k) =
      ∑ j ∈ Finset.Ico (i - (v + 2)) (i - 2), 1 / (X.getD (j + 1) 0 - X.getD j 0) * G j := by
  rw [Finset.sum_Ico_eq_sum_range, show i - 2 - (i - (v + 2)) = v by omega,
    ← Finset.sum_range_reflect]
  refine Finset.sum_congr rfl fun k hk => ?_
  have := Finset.mem_range.1 hk
  rw [show i - 2 - (v - 1 - k) = i - (v + 2) + k + 1 by omega,
    show i - 3 - (v - 1 - k) = i - (v + 2) + k by omega]

theorem sum_gaps_one {X : List ℝ} {v i : ℕ} (hi : v + 2 ≤ i) :
    ∑ k ∈ Finset.range v, 1 / (X.getD (i - 2 - k) 0 - X.getD (i - 3 - k) 0) =
      reciprocalGaps X (v + 2) i := by
  have := sum_gaps (X := X) hi fun _ => 1
  simpa [reciprocalGaps] using this

theorem times_lt {X : List ℝ} (hx : X.Pairwise (· < ·)) {i j : ℕ} (hij : i < j)
    (hj : j < X.length) : X.getD i 0 < X.getD j 0 := by
  rw [List.getD_eq_getElem?_getD, List.getD_eq_getElem?_getD, List.getElem?_eq_getElem hj,
    List.getElem?_eq_getElem (by omega)]
  exact List.pairwise_iff_getElem.1 hx _ _ _ _ hij

/-- **C69, shape.** With a window of at least 2, two or more samples give one output per sample, the
first two copied. A single sample, or three or more with a smaller window, raise IndexError. -/
theorem C69_shape (w : ℤ) (X Y : List ℝ) (hl : X.length = Y.length) (hx : X.Pairwise (· ≤ ·)) :
    (2 ≤ w → 2 ≤ X.length → ∃ out, twf w X Y = .ok (X, out) ∧ out.length = X.length ∧
      out[0]? = some (.val (Y.getD 0 0)) ∧ out[1]? = some (.val (Y.getD 1 0))) ∧
    (X.length = 1 → twf w X Y = .error .indexError) ∧
    (w < 2 → 3 ≤ X.length → twf w X Y = .error .indexError) := by
  refine ⟨?_, ?_, ?_⟩
  · intro hw hn
    obtain ⟨out, h1, h2, h3, h4, -⟩ := twf_spec hw hl hx hn
    exact ⟨out, h1, h2, h3, h4⟩
  · intro h
    have hne : X ≠ [] := by rintro rfl; simp at h
    obtain ⟨y, rfl⟩ := List.length_eq_one_iff.1 (hl.symm.trans h)
    unfold twf
    rw [sortxy_sorted hl hne hx]
    rfl
  · intro hw hn
    have hne : X ≠ [] := by rintro rfl; simp at hn
    obtain ⟨y0, y1, ys, rfl⟩ : ∃ a b c, Y = a :: b :: c := by
      rcases Y with _ | ⟨a, _ | ⟨b, c⟩⟩
      · simp only [List.length_nil] at hl; omega
      · simp only [List.length_nil, List.length_cons] at hl; omega
      · exact ⟨a, b, c, rfl⟩
    unfold twf
    rw [sortxy_sorted hl hne hx]
    simp only [bind, Except.bind, pure, Except.pure]
    obtain ⟨m, hm⟩ : ∃ m, X.length - 2 = m + 1 := ⟨X.length - 3, by omega⟩
    rw [hm, List.range_succ_eq_map]
    have : twfStep w X (y0 :: y1 :: ys) [.val y0, .val y1] 0 = .error .indexError := by
      unfold twfStep twfValue
      rw [if_neg (by push_cast; omega)]
      simp only [bind, Except.bind]
      have e : slice [NR.val y0, NR.val y1] (((0 + 2 : ℕ) : ℤ) - w).toNat (0 + 2 - 1) = [] := by
        unfold slice
        apply List.drop_eq_nil_of_le
        simp only [List.length_take, List.length_cons, List.length_nil]
        push_cast
        omega
      rw [e]
      rfl
    rw [List.foldlM_cons, this]
    rfl

/-- **C69, constants.** A constant signal is returned unchanged if the time stamps increase strictly
and in no window the reciprocal gaps add up to exactly 1. -/
theorem C69_constant (w : ℕ) (hw : 2 ≤ w) (X : List ℝ) (c : ℝ) (hx : X.Pairwise (· < ·))
    (hn : 2 ≤ X.length)
    (hg : ∀ i, w ≤ i → i < X.length → reciprocalGaps X w i ≠ 1) :
    twf w X (List.replicate X.length c) =
      .ok (X, List.replicate X.length (.val c)) := by
  obtain ⟨out, h1, h2, h3, h4, h5⟩ := twf_spec (w := w) (by exact_mod_cast hw)
    (X := X) (Y := List.replicate X.length c) (by simp) (hx.imp fun h => h.le) hn
  have hY : ∀ i, i < X.length → (List.replicate X.length c).getD i 0 = c := by
    intro i hi; rw [List.getD_eq_getElem?_getD, List.getElem?_replicate]; simp [hi]
  have key : ∀ i, i < X.length → out[i]? = some (.val c) := by
    intro i
    induction i using Nat.strong_induction_on with
    | _ i ih =>
      intro hi
      rcases Nat.lt_or_ge i 2 with hc | hc
      · rcases (by omega : i = 0 ∨ i = 1) with rfl | rfl
        · rw [h3, hY _ hi]
        · rw [h4, hY _ hi]
      · obtain ⟨y, e1, e2⟩ := h5 i hc hi
        rw [e1]
        rcases Nat.lt_or_ge i w with hw' | hw'
        · rw [twfValue_early (by exact_mod_cast hw'), List.take_take,
            show min (i - 1) i = i - 1 by omega,
            nrAvg_take (by omega) (fun _ => c) (fun j hj => ih j (by omega) (by omega)), hY _ hi,
            nr_half] at e2
          rw [← Except.ok.inj e2]
          have : ((i - 1 : ℕ) : ℝ) ≠ 0 := by
            have : i - 1 ≠ 0 := by omega
            exact_mod_cast this
          simp only [Finset.sum_const, Finset.card_range, nsmul_eq_mul]
          congr 2
          field_simp
          ring
        · obtain ⟨v, rfl⟩ : ∃ v, w = v + 2 := ⟨w - 2, by omega⟩
          have hden := hg i hw' hi
          rw [← sum_gaps_one hw'] at hden
          push_cast at e2
          rw [twfValue_finite hw' hi h2 (fun _ => c) (fun j hj => ih j (by omega) (by omega))
            (fun k hk => (times_lt hx (by omega) (by omega)).ne)
            (sub_ne_zero.2 (Ne.symm hden)), hY _ hi] at e2
          rw [← Except.ok.inj e2, ← Finset.sum_mul]
          have hd : 1 - ∑ k ∈ Finset.range v, 1 / (X.getD (i - 2 - k) 0 - X.getD (i - 3 - k) 0) ≠ 0 :=
            sub_ne_zero.2 (Ne.symm hden)
          generalize ∑ k ∈ Finset.range v, 1 / (X.getD (i - 2 - k) 0 - X.getD (i - 3 - k) 0) = S at hd
          congr 2
          field_simp
          ring
  rw [h1]
  congr 2
  apply List.ext_getElem (by simp [h2])
  intro i g1 g2
  have := key i (by omega)
  rw [List.getElem?_eq_getElem g1] at this
  rw [Option.some.inj this, List.getElem_replicate]

/-- **C69, division by zero.** Wherever the reciprocal gaps of the window add up to exactly 1 the
output is not a finite number, whatever the data. -/
theorem C69_division_by_zero (w : ℕ) (hw : 2 ≤ w) (X Y : List ℝ) (hl : X.length = Y.length)
    (hx : X.Pairwise (· < ·)) (i : ℕ) (hi : w ≤ i) (hi' : i < X.length)
    (hg : reciprocalGaps X w i = 1) :
    ∃ out, twf w X Y = .ok (X, out) ∧ out[i]? = some .nan := by
  obtain ⟨out, h1, h2, -, -, h5⟩ := twf_spec (w := w) (by exact_mod_cast hw)
    hl (hx.imp fun h => h.le) (by omega)
  refine ⟨out, h1, ?_⟩
  obtain ⟨y, e1, e2⟩ := h5 i (by omega) hi'
  obtain ⟨v, rfl⟩ : ∃ v, w = v + 2 := ⟨w - 2, by omega⟩
  push_cast at e2
  rw [twfValue_window hi hi'.le (by rw [List.length_take]; omega)] at e2
  have e3 : nrSum ((List.range v).map (invGap X i)) = .val (-1) := by
    have hgap : (List.range v).map (invGap X i) = (List.range v).map fun k =>
        NR.val (-(1 / (X.getD (i - 2 - k) 0 - X.getD (i - 3 - k) 0))) := by
      apply List.map_congr_left
      intro k hk
      have hk := List.mem_range.1 hk
      unfold invGap
      rw [NR.val_div _ _ (sub_ne_zero.2 (times_lt hx (by omega) (by omega)).ne)]
      congr 1
      rw [← neg_sub, div_neg]
    rw [hgap, nrSum_range, Finset.sum_neg_distrib, sum_gaps_one hi, hg]
  rw [e3, NR.val_add, add_neg_cancel, val_div_zero, NR.nan_add, NR.nan_div] at e2
  rw [e1, ← Except.ok.inj e2]

/-- **C69, regular sampling.** Samples every `w - 2` seconds (8 s for the default window of 10) give
no finite number from sample `w` on. -/
theorem C69_regular_sampling_breaks (w : ℕ) (hw : 3 ≤ w) (n : ℕ) (Y : List ℝ) (hl : Y.length = n)
    (i : ℕ) (hi : w ≤ i) (hi' : i < n) :
    ∃ out, twf w ((List.range n).map fun k : ℕ => ((w : ℝ) - 2) * k) Y =
        .ok ((List.range n).map fun k : ℕ => ((w : ℝ) - 2) * k, out) ∧ out[i]? = some .nan := by
  have hw' : (0:ℝ) < (w : ℝ) - 2 := by
    have : (3:ℝ) ≤ w := by exact_mod_cast hw
    linarith
  refine C69_division_by_zero w (by omega) _ Y (by simp [hl]) ?_ i hi (by simpa using hi') ?_
  · exact List.pairwise_map.2 (List.pairwise_lt_range.imp fun {a b} h =>
      mul_lt_mul_of_pos_left (by exact_mod_cast h) hw')
  · unfold reciprocalGaps
    have : ∀ j ∈ Finset.Ico (i - w) (i - 2),
        1 / (((List.range n).map fun k : ℕ => ((w : ℝ) - 2) * k).getD (j + 1) 0 -
          ((List.range n).map fun k : ℕ => ((w : ℝ) - 2) * k).getD j 0) = 1 / ((w : ℝ) - 2) := by
      intro j hj
      have := (Finset.mem_Ico.1 hj).2
      simp only [List.getD_eq_getElem?_getD, List.getElem?_map,
        List.getElem?_range (show j < n by omega), List.getElem?_range (show j + 1 < n by omega),
        Option.map_some, Option.getD_some]
      congr 1; push_cast; ring
    rw [Finset.sum_congr rfl this, Finset.sum_const, Nat.card_Ico, nsmul_eq_mul,
      show i - 2 - (i - w) = w - 2 by omega, Nat.cast_sub (by omega)]
    push_cast
    field_simp

/-- The default window and 8-second samples. -/
example : ∃ out, twf 10 ((List.range 12).map fun k : ℕ => (((10 : ℕ) : ℝ) - 2) * k)
      (List.replicate 12 5) =
        .ok ((List.range 12).map fun k : ℕ => (((10 : ℕ) : ℝ) - 2) * k, out) ∧ out[11]? = some .nan :=
  C69_regular_sampling_breaks 10 (by norm_num) 12 _ (by simp) 11 (by norm_num) (by norm_num)

/-- One-second samples are fine: the hypotheses of `C69_constant` hold. -/
example : twf 10 ((List.range 30).map fun k : ℕ => (k : ℝ))
      (List.replicate ((List.range 30).map fun k : ℕ => (k : ℝ)).length 5) =
    .ok ((List.range 30).map fun k : ℕ => (k : ℝ),
      List.replicate ((List.range 30).map fun k : ℕ => (k : ℝ)).length (.val 5)) := by
  refine C69_constant 10 (by norm_num) _ 5
    (List.pairwise_map.2 (List.pairwise_lt_range.imp fun h => by exact_mod_cast h)) (by simp) ?_
  intro i hi hi'
  have hi' : i < 30 := by simpa using hi'
  unfold reciprocalGaps
  have : ∀ j ∈ Finset.Ico (i - 10) (i - 2),
      1 / (((List.range 30).map fun k : ℕ => (k : ℝ)).getD (j + 1) 0 -
        ((List.range 30).map fun k : ℕ => (k : ℝ)).getD j 0) = 1 := by
    intro j hj
    have := (Finset.mem_Ico.1 hj).2
    simp only [List.getD_eq_getElem?_getD, List.getElem?_map,
      List.getElem?_range (show j < 30 by omega), List.getElem?_range (show j + 1 < 30 by omega),
      Option.map_some, Option.getD_some]
    push_cast; norm_num
  rw [Finset.sum_congr rfl this, Finset.sum_const, Nat.card_Ico, show i - 2 - (i - 10) = 8 by omega]
  norm_num

/-- **C69, range.** The output is not bounded by the range of the data: for every window of at least 4
and every bound there are evenly spaced data between 0 and 1 with an output above the bound. -/
theorem C69_unbounded (w : ℕ) (hw : 4 ≤ w) (M : ℝ) :
    ∃ (X Y : List ℝ) (out : List NR) (z : ℝ), X.Pairwise (· < ·) ∧ X.length = Y.length ∧
      (∀ y ∈ Y, 0 ≤ y ∧ y ≤ 1) ∧ twf w X Y = .ok (X, out) ∧ out[w]? = some (.val z) ∧ M < z := by
  obtain ⟨v, rfl⟩ : ∃ v, w = v + 2 := ⟨w - 2, by omega⟩
  have hv : 2 ≤ v := by omega
  have hvR : (2:ℝ) ≤ v := by exact_mod_cast hv
  -- spacing slightly below `v`
  set ε : ℝ := 1 / (2 * (|M| + 1)) with hε
  have hM : 0 ≤ |M| := abs_nonneg M
  have hε0 : 0 < ε := by positivity
  have hε1 : ε ≤ 1 := by rw [hε, div_le_one (by positivity)]; linarith
  set δ : ℝ := v - ε with hδ
  have hδ0 : 0 < δ := by linarith
  set X : List ℝ := (List.range (v + 3)).map fun k : ℕ => δ * k with hX
  set Y : List ℝ := (List.range (v + 3)).map fun k : ℕ => if k = v then 0 else 1 with hY
  have hXl : X.length = v + 3 := by simp [hX]
  have hYl : X.length = Y.length := by simp [hX, hY]
  have hXg : ∀ j, j < v + 3 → X.getD j 0 = δ * j := by
    intro j hj
    rw [hX, List.getD_eq_getElem?_getD, List.getElem?_map, List.getElem?_range hj]; rfl
  have hYg : ∀ j, j < v + 3 → Y.getD j 0 = if j = v then 0 else 1 := by
    intro j hj
    rw [hY, List.getD_eq_getElem?_getD, List.getElem?_map, List.getElem?_range hj]; rfl
  have hxs : X.Pairwise (· < ·) := List.pairwise_map.2 (List.pairwise_lt_range.imp fun {a b} h =>
      mul_lt_mul_of_pos_left (by exact_mod_cast h) hδ0)
  obtain ⟨out, h1, h2, h3, h4, h5⟩ := twf_spec (w := ((v + 2 : ℕ) : ℤ)) (by push_cast; omega)
    hYl (hxs.imp fun h => h.le) (by omega)
  have early : ∀ i, 2 ≤ i → i < v + 2 → (∀ j, j < i - 1 → out[j]? = some (.val 1)) →
      out[i]? = some (.val ((1 + if i = v then 0 else 1) / 2)) := by
    intro i hi hi' hj
    obtain ⟨y, e1, e2⟩ := h5 i hi (by omega)
    rw [twfValue_early (by exact_mod_cast hi'), List.take_take, show min (i - 1) i = i - 1 by omega,
      nrAvg_take (by omega) (fun _ => 1) hj, hYg _ (by omega), nr_half] at e2
    rw [e1, ← Except.ok.inj e2]
    have : ((i - 1 : ℕ) : ℝ) ≠ 0 := by
      have : i - 1 ≠ 0 := by omega
      exact_mod_cast this
    simp only [Finset.sum_const, Finset.card_range, nsmul_eq_mul, mul_one]
    rw [div_self this]
  have ones : ∀ i, i < v → out[i]? = some (.val 1) := by
    intro i
    induction i using Nat.strong_induction_on with
    | _ i ih =>
      intro hi
      rcases Nat.lt_or_ge i 2 with hc | hc
      · rcases (by omega : i = 0 ∨ i = 1) with rfl | rfl
        · rw [h3, hYg _ (by omega), if_neg (by omega)]
        · rw [h4, hYg _ (by omega), if_neg (by omega)]
      · rw [early i hc (by omega) fun j hj => ih j (by omega) (by omega), if_neg (by omega)]
        norm_num
  have half : out[v]? = some (.val (1 / 2)) := by
    rw [early v hv (by omega) fun j hj => ones j (by omega), if_pos rfl]
    norm_num
  obtain ⟨y, e1, e2⟩ := h5 (v + 2) (by omega) (by omega)
  have hgap : ∀ k, k < v → X.getD (v + 2 - 2 - k) 0 - X.getD (v + 2 - 3 - k) 0 = δ := by
    intro k hk
    rw [hXg _ (by omega), hXg _ (by omega), show v + 2 - 2 - k = (v + 2 - 3 - k) + 1 by omega]
    push_cast; ring
  have hsum : ∑ k ∈ Finset.range v, 1 / (X.getD (v + 2 - 2 - k) 0 - X.getD (v + 2 - 3 - k) 0) =
      v / δ := by
    rw [Finset.sum_congr rfl fun k hk => by rw [hgap k (Finset.mem_range.1 hk)], Finset.sum_const,
      Finset.card_range, nsmul_eq_mul]
    ring
  have hden : 1 - (v : ℝ) / δ ≠ 0 := by
    rw [sub_ne_zero, ne_eq, eq_div_iff hδ0.ne']
    intro e; linarith
  push_cast at e2
  rw [twfValue_finite (g := fun j => if j = v then 1 / 2 else 1) (le_refl _) (by omega) h2 (by
      intro j hj
      by_cases hjv : j = v
      · subst hjv; simp [half]
      · simp only [hjv, if_false]; exact ones j (by omega))
    (fun k hk => (times_lt hxs (by omega) (by omega)).ne) (by rw [hsum]; exact hden)] at e2
  rw [Finset.sum_congr rfl fun k hk => by
    rw [hgap k (Finset.mem_range.1 hk), if_neg (show ¬ v + 2 - 3 - k = v by omega)], hsum,
    hYg _ (by omega), if_neg (show ¬ v + 2 = v by omega)] at e2
  simp only [mul_one, Finset.sum_const, Finset.card_range, nsmul_eq_mul, Nat.add_sub_cancel,
    if_true] at e2
  refine ⟨X, Y, out, _, hxs, hYl, ?_, h1, by rw [e1, ← Except.ok.inj e2], ?_⟩
  · intro y hy
    obtain ⟨k, -, rfl⟩ := List.mem_map.1 hy
    split_ifs <;> norm_num
  · have e3 : (1 / 2 - (v : ℝ) * (1 / δ)) / (1 - v / δ) = (v / 2 + ε / 2) / ε := by
      have : δ - v ≠ 0 := by rw [hδ]; linarith
      rw [div_eq_div_iff hden hε0.ne']
      field_simp
      rw [hδ]; ring
    rw [e3]
    have h6 : 2 * (|M| + 1) ≤ (v / 2 + ε / 2) / ε := by
      rw [le_div_iff₀ hε0]
      have : 2 * (|M| + 1) * ε = 1 := by rw [hε]; field_simp
      rw [this]; linarith
    have : M ≤ |M| := le_abs_self M
    linarith

/-! ## C95 -/

theorem take_congr {a b : List NR} {i : ℕ}
    (h : ∀ j, j < i → a[j]? = b[j]?) : a.take i = b.take i := by
  apply List.ext_getElem?
  intro j
  rcases Nat.lt_or_ge j i with hj | hj
  · rw [List.getElem?_take_of_lt hj, List.getElem?_take_of_lt hj, h j hj]
  · rw [List.getElem?_eq_none (by simp; omega), List.getElem?_eq_none (by simp; omega)]

/-- **C95, causality.** Samples that come later do not change the outputs before them. -/
theorem C95_causal (w : ℤ) (hw : 2 ≤ w) (X Y X' Y' : List ℝ) (hl : X.length = Y.length)
    (hl' : X'.length = Y'.length) (hx : (X ++ X').Pairwise (· ≤ ·)) (hn : 2 ≤ X.length) :
    ∃ out out', twf w X Y = .ok (X, out) ∧
      twf w (X ++ X') (Y ++ Y') = .ok (X ++ X', out ++ out') := by
  obtain ⟨a, a1, a2, a3, a4, a5⟩ := twf_spec hw hl (List.pairwise_append.1 hx).1 hn
  obtain ⟨b, b1, b2, b3, b4, b5⟩ := twf_spec (X := X ++ X') (Y := Y ++ Y') hw (by simp [hl, hl']) hx
    (by rw [List.length_append]; omega)
  rw [List.length_append] at b2 b5
  have hY : ∀ i, i < X.length → (Y ++ Y').getD i 0 = Y.getD i 0 := by
    intro i hi
    rw [List.getD_eq_getElem?_getD, List.getD_eq_getElem?_getD,
      List.getElem?_append_left (by omega)]
  have key : ∀ i, i < X.length → b[i]? = a[i]? := by
    intro i
    induction i using Nat.strong_induction_on with
    | _ i ih =>
      intro hi
      rcases Nat.lt_or_ge i 2 with hc | hc
      · rcases (by omega : i = 0 ∨ i = 1) with rfl | rfl
        · rw [a3, b3, hY _ hi]
        · rw [a4, b4, hY _ hi]
      · obtain ⟨y, e1, e2⟩ := a5 i hc hi
        obtain ⟨y', e1', e2'⟩ := b5 i hc (by omega)
        rw [take_congr fun j hj => ih j hj (by omega)] at e2'
        have : twfValue w (X ++ X') (Y ++ Y') (a.take i) i = twfValue w X Y (a.take i) i := by
          unfold twfValue slice
          rw [hY _ hi, List.take_append_of_le_length (show i - 1 ≤ X.length by omega)]
        rw [this, e2] at e2'
        rw [e1, e1', Except.ok.inj e2']
  refine ⟨a, b.drop X.length, a1, ?_⟩
  rw [b1]
  congr 2
  have : b.take X.length = a := by
    rw [take_congr (a := b) (b := a) key, ← a2, List.take_length]
  conv_lhs => rw [← List.take_append_drop X.length b, this]

theorem nrSum_none {l : List NR} (h : .nan ∉ l) : ∃ r : List ℝ, l = r.map .val := by
  induction l with
  | nil => exact ⟨[], rfl⟩
  | cons a l ih =>
    obtain ⟨r, rfl⟩ := ih fun e => h (List.mem_cons_of_mem _ e)
    cases a with
    | nan => exact absurd List.mem_cons_self h
    | val x => exact ⟨x :: r, rfl⟩

theorem nrSum_map_val (r : List ℝ) : nrSum (r.map .val) = .val r.sum := by
  have := nrSum_vals r id
  simpa using this

theorem nrAvg_map {l : List NR} (hl : l ≠ []) (a c : ℝ) :
    nrAvg (l.map (NR.map fun y => a * y + c)) = NR.map (fun y => a * y + c) (nrAvg l) := by
  by_cases h : NR.nan ∈ l
  · have h' : NR.nan ∈ l.map (NR.map fun y => a * y + c) := List.mem_map.2 ⟨_, h, rfl⟩
    unfold nrAvg
    rw [nrSum_nan h, nrSum_nan h', NR.nan_div, NR.nan_div, NR.map_nan]
  · obtain ⟨r, rfl⟩ := nrSum_none h
    have hr : (r.length : ℝ) ≠ 0 := by
      have : r.length ≠ 0 := fun e => hl (by rw [List.length_eq_zero_iff.1 e]; rfl)
      exact_mod_cast this
    have e : (r.map NR.val).map (NR.map fun y => a * y + c) = (r.map fun y => a * y + c).map .val := by
      rw [List.map_map, List.map_map]; rfl
    unfold nrAvg
    rw [e, nrSum_map_val, nrSum_map_val]
    simp only [List.length_map]
    rw [NR.val_div _ _ hr, NR.val_div _ _ hr, NR.map_val]
    congr 1
    have : (r.map fun y => a * y + c).sum = a * r.sum + r.length * c := by
      clear h hl hr e
      induction r with
      | nil => simp
      | cons x r ih => simp only [List.map_cons, List.sum_cons, ih, List.length_cons]; push_cast; ring
    rw [this]
    field_simp

/-- **C95.** The filter commutes with every affine change of the values, including the places where its
output is not finite. -/
theorem C95_affine (w : ℤ) (hw : 2 ≤ w) (X Y : List ℝ) (hl : X.length = Y.length)
    (hx : X.Pairwise (· ≤ ·)) (hn : 2 ≤ X.length) (a c : ℝ) :
    ∃ out, twf w X Y = .ok (X, out) ∧
      twf w X (Y.map fun y => a * y + c) = .ok (X, out.map (NR.map fun y => a * y + c)) := by
  obtain ⟨p, p1, p2, p3, p4, p5⟩ := twf_spec hw hl hx hn
  obtain ⟨q, q1, q2, q3, q4, q5⟩ := twf_spec (Y := Y.map fun y => a * y + c) hw (by simpa using hl) hx hn
  have hY : ∀ i, i < X.length → (Y.map fun y => a * y + c).getD i 0 = a * Y.getD i 0 + c := by
    intro i hi
    simp only [List.getD_eq_getElem?_getD, List.getElem?_map,
      List.getElem?_eq_getElem (show i < Y.length by omega), Option.map_some, Option.getD_some]
  set F : NR → NR := NR.map fun y => a * y + c with hF
  have key : ∀ i, i < X.length → q[i]? = (p.map F)[i]? := by
    intro i
    induction i using Nat.strong_induction_on with
    | _ i ih =>
      intro hi
      rw [List.getElem?_map]
      rcases Nat.lt_or_ge i 2 with hc | hc
      · rcases (by omega : i = 0 ∨ i = 1) with rfl | rfl
        · rw [p3, q3, hY _ hi]; rfl
        · rw [p4, q4, hY _ hi]; rfl
      · obtain ⟨y, e1, e2⟩ := p5 i hc hi
        obtain ⟨y', e1', e2'⟩ := q5 i hc hi
        rw [e1, e1', Option.map_some]
        have ht : q.take i = (p.map F).take i :=
          take_congr fun j hj => ih j hj (by omega)
        rw [ht, ← List.map_take] at e2'
        congr 1
        have hhalf : ∀ (u : NR) (b : ℝ), (F u + .val (a * b + c)) / .val 2 = F ((u + .val b) / .val 2) := by
          intro u b
          cases u with
          | nan => simp [hF]
          | val x =>
            simp only [hF, NR.map_val]
            rw [nr_half, nr_half, NR.map_val]
            congr 1; ring
        rcases lt_or_ge (i : ℤ) w with hw' | hw'
        · rw [twfValue_early hw', hY _ hi, ← List.map_take, nrAvg_map (fun e => by
            have := congrArg List.length e
            simp only [List.length_take, List.length_nil] at this
            omega), hhalf] at e2'
          rw [twfValue_early hw'] at e2
          rw [← Except.ok.inj e2', ← Except.ok.inj e2]
        · obtain ⟨v, rfl⟩ : ∃ v : ℕ, w = (v : ℤ) + 2 := ⟨(w - 2).toNat, by omega⟩
          have hvi : v + 2 ≤ i := by omega
          have hlen : (p.take i).length = i := by rw [List.length_take]; omega
          rw [twfValue_window hvi (by omega) hlen] at e2
          rw [twfValue_window hvi (by omega) (by rw [List.length_map, hlen]), hY _ hi] at e2'
          rw [← Except.ok.inj e2', ← Except.ok.inj e2, ← hhalf]
          congr 2
          have hmap : ∀ j, j < i → ((p.take i).map F).getD j .nan = F ((p.take i).getD j .nan) := by
            intro j hj
            simp only [List.getD_eq_getElem?_getD, List.getElem?_map,
              List.getElem?_eq_getElem (show j < (p.take i).length by omega), Option.map_some,
              Option.getD_some]
          rw [hmap _ (by omega)]
          have e3 : (List.range v).map (fun k => invGap X i k * ((p.take i).map F).getD (i - 3 - k) .nan) =
              (List.range v).map fun k => invGap X i k * F ((p.take i).getD (i - 3 - k) .nan) :=
            List.map_congr_left fun k hk => by
              have := List.mem_range.1 hk
              rw [hmap _ (by omega)]
          rw [e3]
          generalize hu : (p.take i).getD (i - 2) .nan = u
          generalize hz : (fun k => (p.take i).getD (i - 3 - k) .nan) = z
          have hz' : ∀ k, (p.take i).getD (i - 3 - k) .nan = z k := fun k => congrFun hz k
          simp only [hz']
          by_cases hr : NR.nan ∈ (List.range v).map (invGap X i)
          · rw [nrSum_nan hr, NR.add_nan, NR.div_nan, NR.div_nan]; rfl
          · obtain ⟨r, hr⟩ : ∃ r : ℕ → ℝ, ∀ k, k < v → invGap X i k = .val (r k) := by
              refine ⟨fun k => match invGap X i k with | .val x => x | .nan => 0, fun k hk => ?_⟩
              have : invGap X i k ≠ .nan := fun e =>
                hr (List.mem_map.2 ⟨k, List.mem_range.2 hk, e⟩)
              cases h : invGap X i k with
              | nan => exact absurd h this
              | val x => simp only [h]
            have e4 : (List.range v).map (invGap X i) = (List.range v).map fun k => NR.val (r k) :=
              List.map_congr_left fun k hk => hr k (List.mem_range.1 hk)
            have e5 : ∀ g : ℕ → NR, (List.range v).map (fun k => invGap X i k * g k) =
                (List.range v).map fun k => NR.val (r k) * g k := fun g =>
              List.map_congr_left fun k hk => by rw [hr k (List.mem_range.1 hk)]
            rw [e4, e5, e5, nrSum_range, NR.val_add]
            cases u with
            | nan => simp [hF]
            | val u =>
              by_cases hzn : ∃ k, k < v ∧ z k = .nan
              · obtain ⟨k, hk, hk'⟩ := hzn
                rw [nrSum_nan (List.mem_map.2 ⟨k, List.mem_range.2 hk, by rw [hk']; rfl⟩),
                  nrSum_nan (List.mem_map.2 ⟨k, List.mem_range.2 hk, by rw [hk']; rfl⟩)]
                simp [hF]
              · obtain ⟨t, ht⟩ : ∃ t : ℕ → ℝ, ∀ k, k < v → z k = .val (t k) := by
                  refine ⟨fun k => match z k with | .val x => x | .nan => 0, fun k hk => ?_⟩
                  have : z k ≠ .nan := fun e => hzn ⟨k, hk, e⟩
                  cases h : z k with
                  | nan => exact absurd h this
                  | val x => simp only [h]
                have e6 : (List.range v).map (fun k => NR.val (r k) * z k) =
                    (List.range v).map fun k => NR.val (r k * t k) :=
                  List.map_congr_left fun k hk => by rw [ht k (List.mem_range.1 hk)]; rfl
                have e7 : (List.range v).map (fun k => NR.val (r k) * F (z k)) =
                    (List.range v).map fun k => NR.val (r k * (a * t k + c)) :=
                  List.map_congr_left fun k hk => by rw [ht k (List.mem_range.1 hk)]; rfl
                rw [e6, e7, nrSum_range, nrSum_range]
                have hs : ∑ k ∈ Finset.range v, r k * (a * t k + c) =
                    a * ∑ k ∈ Finset.range v, r k * t k + (∑ k ∈ Finset.range v, r k) * c := by
                  rw [Finset.mul_sum, Finset.sum_mul, ← Finset.sum_add_distrib]
                  exact Finset.sum_congr rfl fun k _ => by ring
                rw [hs]
                generalize ∑ k ∈ Finset.range v, r k = S
                generalize ∑ k ∈ Finset.range v, r k * t k = T
                by_cases hd : 1 + S = 0
                · rw [hd, val_div_zero, val_div_zero]; rfl
                · simp only [hF, NR.map_val, NR.val_add]
                  rw [NR.val_div _ _ hd, NR.val_div _ _ hd, NR.map_val]
                  congr 1
                  field_simp
                  ring
  refine ⟨p, p1, ?_⟩
  rw [q1]
  congr 2
  apply List.ext_getElem?
  intro i
  rcases Nat.lt_or_ge i X.length with h | h
  · exact key i h
  · rw [List.getElem?_eq_none (by omega), List.getElem?_eq_none (by rw [List.length_map]; omega)]

/-- Three samples, then two later ones, with two coinciding time stamps. -/
example : ∃ out out', twf 2 [0, 1, 4] [5, 7, 6] = .ok ([0, 1, 4], out) ∧
    twf 2 ([0, 1, 4] ++ [4, 9]) ([5, 7, 6] ++ [8, 100]) = .ok ([0, 1, 4] ++ [4, 9], out ++ out') :=
  C95_causal 2 le_rfl [0, 1, 4] [5, 7, 6] [4, 9] [8, 100] rfl rfl (by norm_num) (by norm_num)

/-- From degrees Celsius to Fahrenheit. -/
example : ∃ out, twf 10 [0, 1, 4] [5, 7, 6] = .ok ([0, 1, 4], out) ∧
    twf 10 [0, 1, 4] ([5, 7, 6].map fun y => 1.8 * y + 32) =
      .ok ([0, 1, 4], out.map (NR.map fun y => 1.8 * y + 32)) :=
  C95_affine 10 (by norm_num) [0, 1, 4] [5, 7, 6] rfl (by norm_num) (by norm_num) 1.8 32

end Verif.Props
