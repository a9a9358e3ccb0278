import Verif.Lemmas.SavGol
import Mathlib.Data.List.Sort

/-!
# Sorting, filling and convolution
-/

namespace Verif.Filters
open Verif

/-! ## sortxy -/

open Classical in
/-- The sorted list of pairs. -/
noncomputable def sorted {β : Type} (X : List ℝ) (Y : List β) : List (ℝ × β) :=
  (X.zip Y).mergeSort fun s t => decide (s.1 ≤ t.1)

theorem sorted_perm {β : Type} (X : List ℝ) (Y : List β) : (sorted X Y).Perm (X.zip Y) :=
  List.mergeSort_perm _ _

theorem sorted_pairwise {β : Type} (X : List ℝ) (Y : List β) :
    (sorted X Y).Pairwise fun s t => s.1 ≤ t.1 := by
  classical
  have := List.pairwise_mergeSort (le := fun s t : ℝ × β => decide (s.1 ≤ t.1))
    (fun a b c h1 h2 => by
      simp only [decide_eq_true_eq] at *
      exact h1.trans h2)
    (fun a b => by simpa using le_total a.1 b.1) (X.zip Y)
  exact this.imp fun h => by simpa using h

open Classical in
/-- Stability: samples with the same time keep their order. -/
theorem sorted_stable {β : Type} (X : List ℝ) (Y : List β) (t : ℝ) :
    (sorted X Y).filter (fun s => decide (s.1 = t)) = (X.zip Y).filter (fun s => decide (s.1 = t)) := by
  set c := (X.zip Y).filter (fun s => decide (s.1 = t)) with hc
  have hmem : ∀ s ∈ c, s.1 = t := fun s hs => by simpa using (List.mem_filter.1 hs).2
  have hsub : c.Sublist (sorted X Y) := by
    apply List.sublist_mergeSort
    · intro a b d h1 h2
      simp only [decide_eq_true_eq] at *
      exact h1.trans h2
    · intro a b; simpa using le_total a.1 b.1
    · exact List.pairwise_of_forall_mem_list fun a ha b hb => by
        rw [hmem a ha, hmem b hb]; simp
    · exact List.filter_sublist
  have h1 : c.Sublist ((sorted X Y).filter fun s => decide (s.1 = t)) := by
    have := hsub.filter (fun s => decide (s.1 = t))
    rwa [List.filter_eq_self.2 (fun s hs => by simpa using hmem s hs)] at this
  have h2 := ((sorted_perm X Y).filter fun s => decide (s.1 = t)).length_eq
  exact (h1.eq_of_length h2.symm).symm

theorem sortxy_ok {β : Type} {X : List ℝ} {Y : List β} (hl : X.length = Y.length) (hne : X ≠ []) :
    sortxy X Y = .ok ((sorted X Y).map (·.1), (sorted X Y).map (·.2)) := by
  have hlen : (sorted X Y).length = X.length := by
    rw [(sorted_perm X Y).length_eq, List.length_zip, hl, Nat.min_self]
  have hs : sorted X Y ≠ [] := fun e => by
    rw [e] at hlen; exact hne (List.length_eq_zero_iff.1 hlen.symm)
  unfold sortxy
  change (match sorted X Y with
    | [] => Except.error PyError.valueError
    | _ => .ok ((sorted X Y).map Prod.fst, (sorted X Y).map Prod.snd)) = _
  split
  · rename_i e; exact absurd e hs
  · rfl

theorem sorted_of_sorted {β : Type} {X : List ℝ} {Y : List β} (hx : X.Pairwise (· ≤ ·)) :
    sorted X Y = X.zip Y := by
  apply List.mergeSort_of_pairwise
  induction X generalizing Y with
  | nil => simp
  | cons x X ih =>
    cases Y with
    | nil => simp
    | cons y Y =>
      rw [List.zip_cons_cons, List.pairwise_cons]
      refine ⟨fun s hs => ?_, ih hx.of_cons⟩
      have : s.1 ∈ X := (List.of_mem_zip (a := s.1) (b := s.2) hs).1
      simpa using (List.pairwise_cons.1 hx).1 _ this

/-- Sorted data are returned as they are. -/
theorem sortxy_sorted {β : Type} {X : List ℝ} {Y : List β} (hl : X.length = Y.length) (hne : X ≠ [])
    (hx : X.Pairwise (· ≤ ·)) : sortxy X Y = .ok (X, Y) := by
  rw [sortxy_ok hl hne, sorted_of_sorted hx]
  congr 2
  · exact List.map_fst_zip hl.le
  · exact List.map_snd_zip hl.ge

/-! ## convolution of a padded signal -/

theorem padded_length {h : ℕ} {Y : List ℝ} (hn : h < Y.length) :
    (padded h Y).length = Y.length + 2 * h := by
  simp only [padded, List.length_append, List.length_map, List.length_reverse, List.length_drop,
    List.length_take]
  omega

theorem padded_length' {h : ℕ} {Y : List ℝ} (hn : Y.length ≤ h) (hne : Y ≠ []) :
    (padded h Y).length = 3 * Y.length - 2 := by
  have := List.length_pos_of_ne_nil hne
  simp only [padded, List.length_append, List.length_map, List.length_reverse, List.length_drop,
    List.length_take]
  omega

theorem padded_mid {h : ℕ} {Y : List ℝ} (hn : h < Y.length) {q : ℕ} (h1 : h ≤ q)
    (h2 : q < h + Y.length) : (padded h Y).getD q 0 = Y.getD (q - h) 0 := by
  simp only [padded, List.getD_eq_getElem?_getD]
  have hl : (((Y.take (h + 1)).drop 1).reverse.map (fun y => Y.headD 0 - |y - Y.headD 0|)).length = h := by
    simp only [List.length_map, List.length_reverse, List.length_drop, List.length_take]; omega
  rw [List.getElem?_append_left (by rw [List.length_append, hl]; omega),
    List.getElem?_append_right (by rw [hl]; exact h1), hl]

theorem padded_first {h : ℕ} {Y : List ℝ} (hn : h < Y.length) {q : ℕ} (h1 : q < h) :
    (padded h Y).getD q 0 = Y.getD 0 0 - |Y.getD (h - q) 0 - Y.getD 0 0| := by
  have hl : (((Y.take (h + 1)).drop 1).reverse.map (fun y => Y.headD 0 - |y - Y.headD 0|)).length = h := by
    simp only [List.length_map, List.length_reverse, List.length_drop, List.length_take]; omega
  have h0 : Y.headD 0 = Y.getD 0 0 := by cases Y <;> rfl
  simp only [padded, h0]
  rw [h0] at hl
  simp only [List.getD_eq_getElem?_getD] at hl ⊢
  rw [List.getElem?_append_left (by rw [List.length_append, hl]; omega),
    List.getElem?_append_left (by rw [hl]; exact h1), List.getElem?_map, List.getElem?_reverse
    (by simp only [List.length_drop, List.length_take]; omega)]
  simp only [List.length_drop, List.length_take, List.getElem?_drop]
  rw [List.getElem?_take_of_lt (by omega), show 1 + (min (h + 1) Y.length - 1 - 1 - q) = h - q by omega,
    List.getElem?_eq_getElem (show h - q < Y.length by omega)]
  simp

theorem padded_last {h : ℕ} {Y : List ℝ} (hn : h < Y.length) {r : ℕ} (h1 : r < h) :
    (padded h Y).getD (h + Y.length + r) 0 =
      Y.getD (Y.length - 1) 0 + |Y.getD (Y.length - 2 - r) 0 - Y.getD (Y.length - 1) 0| := by
  have hl : (((Y.take (h + 1)).drop 1).reverse.map (fun y => Y.headD 0 - |y - Y.headD 0|)).length = h := by
    simp only [List.length_map, List.length_reverse, List.length_drop, List.length_take]; omega
  have h0 : Y.getLastD 0 = Y.getD (Y.length - 1) 0 := by
    rw [List.getLastD_eq_getLast?, List.getLast?_eq_getElem?, List.getD_eq_getElem?_getD]
  simp only [padded, h0]
  simp only [List.getD_eq_getElem?_getD]
  rw [List.getElem?_append_right (by rw [List.length_append, hl]; omega), List.length_append, hl,
    List.getElem?_map, List.getElem?_reverse
    (by simp only [List.length_drop, List.length_take]; omega)]
  simp only [List.length_drop, List.length_take, List.getElem?_drop]
  rw [List.getElem?_take_of_lt (by omega),
    show Y.length - h - 1 + (min (Y.length - 1) Y.length - (Y.length - h - 1) - 1 -
      (h + Y.length + r - (h + Y.length))) = Y.length - 2 - r by omega,
    List.getElem?_eq_getElem (show Y.length - 2 - r < Y.length by omega)]
  simp

theorem convolve_short {m l : List ℝ} (h : m.length ≤ l.length) :
    (convolveValid m l).length = l.length - m.length + 1 ∧
    ∀ j, j < l.length - m.length + 1 → (convolveValid m l).getD j 0 =
      ∑ i ∈ Finset.range m.length, m.getD i 0 * l.getD (j + m.length - 1 - i) 0 := by
  unfold convolveValid
  simp only [if_pos h]
  refine ⟨by simp, fun j hj => ?_⟩
  rw [List.getD_eq_getElem?_getD, List.getElem?_map, List.getElem?_range hj, Option.map_some,
    Option.getD_some]
  rfl

theorem convolve_length (m l : List ℝ) :
    (convolveValid m l).length = max m.length l.length - min m.length l.length + 1 := by
  unfold convolveValid
  simp only [List.length_map, List.length_range]
  split_ifs with h <;> omega

/-- Output sample `j` of the filter: the window is traversed backwards. -/
theorem convolve_padded {half : ℕ} (k : Fin (2 * half + 1) → ℝ) {Y : List ℝ}
    (hn : half < Y.length) :
    (convolveValid (List.ofFn k) (padded half Y)).length = Y.length ∧
    ∀ j, j < Y.length → (convolveValid (List.ofFn k) (padded half Y)).getD j 0 =
      ∑ i : Fin (2 * half + 1), k i * (padded half Y).getD (j + 2 * half - i) 0 := by
  have hp := padded_length hn
  have hlen : (List.ofFn k).length ≤ (padded half Y).length := by
    rw [List.length_ofFn, hp]; omega
  obtain ⟨h1, h2⟩ := convolve_short hlen
  rw [List.length_ofFn, hp] at h1 h2
  refine ⟨by omega, fun j hj => ?_⟩
  rw [h2 j (by omega), Finset.sum_range]
  refine Finset.sum_congr rfl fun i _ => ?_
  rw [List.getD_eq_getElem?_getD, List.getElem?_eq_getElem (by rw [List.length_ofFn]; exact i.2)]
  simp only [List.getElem_ofFn, Option.getD_some]
  congr 2

end Verif.Filters
