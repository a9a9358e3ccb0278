import Verif.Lemmas.Filters
import Mathlib.Tactic.Positivity
import Mathlib.Algebra.BigOperators.Field

/-!
# C96: the spline filter
-/

namespace Verif.Props
open Verif Verif.Filters

theorem gaussian25_pos (s : ℝ) (j : Fin 25) : 0 < gaussian25 s j := Real.exp_pos _

theorem weights_sum (s : ℝ) : ∑ j, gaussian25 s j / (∑ k, gaussian25 s k) = 1 := by
  rw [← Finset.sum_div, div_self]
  exact (Finset.sum_pos (fun j _ => gaussian25_pos s j) ⟨0, Finset.mem_univ _⟩).ne'

theorem weight_pos (s : ℝ) (j : Fin 25) : 0 < gaussian25 s j / (∑ k, gaussian25 s k) :=
  div_pos (gaussian25_pos s j)
    (Finset.sum_pos (fun j _ => gaussian25_pos s j) ⟨0, Finset.mem_univ _⟩)

theorem reflect_lt {n : ℕ} (hn : 0 < n) (k : ℤ) : reflect n k < n := by
  unfold reflect
  simp only
  have h1 := Int.emod_nonneg k (show (2 * n : ℤ) ≠ 0 by omega)
  have h2 := Int.emod_lt_of_pos k (show (0:ℤ) < 2 * n by omega)
  split_ifs with h
  · exact h
  · omega

theorem smooth25_bounds (s : ℝ) {l : List ℝ} {lo hi : ℝ} (hl : ∀ y ∈ l, lo ≤ y ∧ y ≤ hi) {i : ℕ}
    (hne : l ≠ []) : lo ≤ smooth25 s l i ∧ smooth25 s l i ≤ hi := by
  have hmem : ∀ j : Fin 25, lo ≤ l.getD (reflect l.length ((i : ℤ) + 12 - (j : ℕ))) 0 ∧
      l.getD (reflect l.length ((i : ℤ) + 12 - (j : ℕ))) 0 ≤ hi := by
    intro j
    have := reflect_lt (List.length_pos_of_ne_nil hne) ((i : ℤ) + 12 - (j : ℕ))
    rw [List.getD_eq_getElem?_getD, List.getElem?_eq_getElem this]
    exact hl _ (List.getElem_mem _)
  have hlo : lo = ∑ j, gaussian25 s j / (∑ k, gaussian25 s k) * lo := by
    rw [← Finset.sum_mul, weights_sum, one_mul]
  have hhi : hi = ∑ j, gaussian25 s j / (∑ k, gaussian25 s k) * hi := by
    rw [← Finset.sum_mul, weights_sum, one_mul]
  unfold smooth25
  constructor
  · rw [hlo]
    exact Finset.sum_le_sum fun j _ => by
      exact mul_le_mul_of_nonneg_left (hmem j).1 (weight_pos s j).le
  · rw [hhi]
    exact Finset.sum_le_sum fun j _ => by
      exact mul_le_mul_of_nonneg_left (hmem j).2 (weight_pos s j).le

/-- **C96, weights.** The local averages stay within the range of the data and all local variances are
strictly positive, so that the weights handed to the spline fit are finite and positive. For constant
data all variances are 1. -/
theorem C96_weights (series : List ℝ) (sigma : ℝ) (_hs : sigma ≠ 0) :
    (splineKernel series sigma).1.length = series.length ∧
    (splineKernel series sigma).2.length = series.length ∧
    (∀ lo hi, (∀ y ∈ series, lo ≤ y ∧ y ≤ hi) →
      ∀ a ∈ (splineKernel series sigma).1, lo ≤ a ∧ a ≤ hi) ∧
    (∀ v ∈ (splineKernel series sigma).2, 0 < v) ∧
    (∀ c, (∀ y ∈ series, y = c) → (∀ a ∈ (splineKernel series sigma).1, a = c) ∧
      ∀ v ∈ (splineKernel series sigma).2, v = 1) := by
  have hlen : (convolve25 sigma series).length = series.length := by simp [convolve25]
  have hrange : ∀ (l : List ℝ) lo hi, (∀ y ∈ l, lo ≤ y ∧ y ≤ hi) →
      ∀ a ∈ convolve25 sigma l, lo ≤ a ∧ a ≤ hi := by
    intro l lo hi h a ha
    obtain ⟨i, hi', rfl⟩ := List.mem_map.1 ha
    have hne : l ≠ [] := by rintro rfl; simp at hi'
    exact smooth25_bounds sigma h hne
  refine ⟨hlen, ?_, hrange series, ?_, ?_⟩
  · simp [splineKernel, convolve25]
  · intro v hv
    obtain ⟨u, hu, rfl⟩ := List.mem_map.1 hv
    have h0 : 0 ≤ u := by
      obtain ⟨i, hi', rfl⟩ := List.mem_map.1 hu
      unfold smooth25
      refine Finset.sum_nonneg fun j _ => mul_nonneg (weight_pos _ _).le ?_
      rw [List.getD_eq_getElem?_getD]
      cases h : (List.zipWith (fun y a => (y - a) ^ 2) series (convolve25 sigma series))[reflect
        (List.zipWith (fun y a => (y - a) ^ 2) series (convolve25 sigma series)).length
        ((i : ℤ) + 12 - (j : ℕ))]? with
      | none => simp
      | some x =>
        have := List.mem_of_getElem? h
        rw [List.mem_iff_getElem] at this
        obtain ⟨k, hk, rfl⟩ := this
        rw [List.getElem_zipWith]
        simp only [Option.getD_some]
        positivity
    split_ifs with h
    · exact one_pos
    · exact lt_of_le_of_ne h0 (Ne.symm h)
  · intro c hc
    have havg : ∀ a ∈ convolve25 sigma series, a = c := by
      intro a ha
      have := hrange series c c (fun y hy => by rw [hc y hy]; exact ⟨le_refl _, le_refl _⟩) a ha
      exact le_antisymm this.2 this.1
    refine ⟨havg, ?_⟩
    intro v hv
    obtain ⟨u, hu, rfl⟩ := List.mem_map.1 hv
    have := hrange (List.zipWith (fun y a => (y - a) ^ 2) series (convolve25 sigma series)) 0 0 (by
      intro y hy
      obtain ⟨k, hk, rfl⟩ := List.mem_iff_getElem.1 hy
      rw [List.getElem_zipWith, hc _ (List.getElem_mem _), havg _ (List.getElem_mem _)]
      simp) u hu
    rw [if_pos (le_antisymm this.2 this.1)]

theorem gaussian25_rev (s : ℝ) (j : Fin 25) : gaussian25 s j.rev = gaussian25 s j := by
  unfold gaussian25
  rw [Fin.val_rev]
  have : j.val ≤ 24 := by omega
  rw [show 25 - (j.val + 1) = 24 - j.val by omega]
  push_cast [this]
  congr 2
  ring

theorem reflect_rev {n : ℕ} (hn : 0 < n) (k : ℤ) : reflect n ((n : ℤ) - 1 - k) = n - 1 - reflect n k := by
  unfold reflect
  simp only
  have h1 := Int.emod_nonneg k (show (2 * n : ℤ) ≠ 0 by omega)
  have h2 := Int.emod_lt_of_pos k (show (0:ℤ) < 2 * n by omega)
  have h5 := Int.emod_add_mul_ediv k (2 * n)
  generalize k % (2 * n : ℤ) = r at *
  generalize k / (2 * n : ℤ) = q at *
  have e : ((n : ℤ) - 1 - k) % (2 * n) = if r < n then n - 1 - r else 3 * n - 1 - r := by
    have : (n : ℤ) - 1 - k = ((n : ℤ) - 1 - r) + (2 * n) * (-q) := by linarith
    rw [this, Int.add_mul_emod_self_left]
    split_ifs with h
    · rw [Int.emod_eq_of_lt] <;> omega
    · rw [show (n : ℤ) - 1 - r = (3 * n - 1 - r) + (2 * n) * (-1) by ring,
        Int.add_mul_emod_self_left, Int.emod_eq_of_lt] <;> omega
  rw [e]
  split_ifs <;> omega

theorem smooth25_rev (s : ℝ) (l : List ℝ) {i : ℕ} (hi : i < l.length) :
    smooth25 s l.reverse i = smooth25 s l (l.length - 1 - i) := by
  unfold smooth25
  rw [← Equiv.sum_comp Fin.revPerm]
  refine Finset.sum_congr rfl fun j _ => ?_
  rw [Fin.revPerm_apply, gaussian25_rev, List.length_reverse]
  congr 1
  have hn : 0 < l.length := by omega
  have e : (i : ℤ) + 12 - ((j.rev : Fin 25) : ℕ) =
      (l.length : ℤ) - 1 - (((l.length - 1 - i : ℕ) : ℤ) + 12 - (j : ℕ)) := by
    rw [Fin.val_rev]
    omega
  rw [e, reflect_rev hn]
  have h := reflect_lt hn (((l.length - 1 - i : ℕ) : ℤ) + 12 - (j : ℕ))
  rw [List.getD_eq_getElem?_getD, List.getD_eq_getElem?_getD, List.getElem?_reverse (by omega)]
  congr 2
  omega

theorem convolve25_rev (s : ℝ) (l : List ℝ) : convolve25 s l.reverse = (convolve25 s l).reverse := by
  refine List.ext_getElem (by simp [convolve25]) fun i h1 h2 => ?_
  have hi : i < l.length := by simpa [convolve25] using h1
  rw [List.getElem_reverse]
  simp only [convolve25, List.getElem_map, List.getElem_range, List.length_map, List.length_range]
  exact smooth25_rev s l hi

/-- **C96, direction of time.** The window is centred: reversing the data reverses the local averages and
the local variances, so neither lags behind nor runs ahead of the data. -/
theorem C96_symmetric (series : List ℝ) (sigma : ℝ) :
    (splineKernel series.reverse sigma).1 = (splineKernel series sigma).1.reverse ∧
    (splineKernel series.reverse sigma).2 = (splineKernel series sigma).2.reverse := by
  refine ⟨convolve25_rev _ _, ?_⟩
  have hz : List.zipWith (fun y a => (y - a) ^ 2) series.reverse (convolve25 sigma series).reverse =
      (List.zipWith (fun y a => (y - a) ^ 2) series (convolve25 sigma series)).reverse :=
    (List.reverse_zipWith (by simp [convolve25])).symm
  unfold splineKernel
  simp only
  rw [convolve25_rev, hz, convolve25_rev, List.map_reverse]

/-- A spike in the middle of five samples is smoothed symmetrically. -/
example : (splineKernel [0, 1, 9, 1, 0] 3).1.reverse = (splineKernel [0, 1, 9, 1, 0] 3).1 :=
  (C96_symmetric [0, 1, 9, 1, 0] 3).1.symm

/-- **C96, times.** Without interpolation one value per sample is returned, at the sorted times. With
interpolation the times are 0, 1, 2, … below the last time stamp, whatever the first time stamp is:
data that start late are extended back to time 0, data that end at or before 0 give nothing, and the
last time stamp itself is never included. -/
theorem C96_times (fit : List ℝ → List ℝ → List ℝ → ℝ → ℝ) (X Y : List ℝ)
    (hl : X.length = Y.length) (b : ℝ) (hb : b ∈ X) (hmax : ∀ t ∈ X, t ≤ b) :
    (∃ X' Y', splineFilter false fit X Y = .ok (X', Y') ∧ X'.Perm X ∧ X'.Pairwise (· ≤ ·) ∧
      Y'.length = X'.length) ∧
    (∃ X' Y', splineFilter true fit X Y = .ok (X', Y') ∧ Y'.length = X'.length ∧
      X'.Pairwise (· < ·) ∧ ∀ t, t ∈ X' ↔ ∃ k : ℕ, t = k ∧ t < b) := by
  have hne : X ≠ [] := List.ne_nil_of_mem hb
  have hperm : ((sorted X Y).map (·.1)).Perm X := by
    have := (sorted_perm X Y).map Prod.fst
    rwa [List.map_fst_zip hl.le] at this
  have hpw : ((sorted X Y).map (·.1)).Pairwise (· ≤ ·) := List.pairwise_map.2 (sorted_pairwise X Y)
  unfold splineFilter
  rw [sortxy_ok hl hne]
  simp only [bind, Except.bind, pure, Except.pure, Bool.false_eq_true, if_false, if_true]
  generalize hS : (sorted X Y).map (·.1) = S at *
  refine ⟨⟨_, _, rfl, hperm, hpw, by simp⟩, _, _, rfl, by simp, ?_, ?_⟩
  · exact List.pairwise_map.2 (List.pairwise_lt_range.imp fun h => by exact_mod_cast h)
  · have hSne : S ≠ [] := by rintro rfl; exact hne hperm.symm.eq_nil
    have hlast : S.getLastD 0 = b := by
      rw [List.getLastD_eq_getLast?, List.getLast?_eq_some_getLast hSne, Option.getD_some]
      refine le_antisymm (hmax _ (hperm.subset (List.getLast_mem hSne))) ?_
      obtain ⟨i, hi, e⟩ := List.mem_iff_getElem.1 (hperm.symm.subset hb)
      rw [← e, List.getLast_eq_getElem]
      rcases Nat.lt_or_ge i (S.length - 1) with h | h
      · exact List.pairwise_iff_getElem.1 hpw _ _ hi _ h
      · have : i = S.length - 1 := by omega
        subst this; exact le_refl _
    intro t
    rw [hlast, List.mem_map]
    have hk : ∀ k : ℕ, k < ⌈b⌉.toNat ↔ (k : ℝ) < b := by
      intro k
      rw [Int.lt_toNat, Int.lt_ceil]; norm_cast
    constructor
    · rintro ⟨k, h1, rfl⟩
      exact ⟨k, rfl, (hk k).1 (List.mem_range.1 h1)⟩
    · rintro ⟨k, rfl, h⟩
      exact ⟨k, List.mem_range.2 ((hk k).2 h), rfl⟩

/-- A single spike: averages stay between 0 and 9. -/
example : ∀ a ∈ (splineKernel [0, 0, 9, 0] 3).1, 0 ≤ a ∧ a ≤ 9 :=
  (C96_weights [0, 0, 9, 0] 3 (by norm_num)).2.2.1 0 9 (by norm_num)

/-- Samples at 100 s and 103 s: the interpolated output starts at time 0. -/
example (fit : List ℝ → List ℝ → List ℝ → ℝ → ℝ) : ∃ X' Y',
    splineFilter true fit [100, 103] [1, 2] = .ok (X', Y') ∧ (0:ℝ) ∈ X' ∧ (103:ℝ) ∉ X' := by
  obtain ⟨-, X', Y', h, -, -, h1⟩ := C96_times fit [100, 103] [1, 2] rfl 103 (by simp)
    (by intro t ht; simp only [List.mem_cons, List.not_mem_nil, or_false] at ht
        rcases ht with rfl | rfl <;> norm_num)
  refine ⟨X', Y', h, (h1 0).2 ⟨0, by norm_num, by norm_num⟩, fun hm => ?_⟩
  obtain ⟨k, -, hk⟩ := (h1 103).1 hm
  exact lt_irrefl _ hk

end Verif.Props
