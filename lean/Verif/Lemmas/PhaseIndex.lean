import Verif.Lemmas.PhaseLabels

/-! Lemmas on the take-off and landing searches. -/

namespace Verif.Phase
open Verif

theorem lowPrefix_spec (l : List ℝ) : ∀ i e,
    (lowPrefix l i e = e ∧ (l = [] ∨ 1500 ≤ l.getD 0 0)) ∨
    (∃ k, lowPrefix l i e = i + k ∧ k < l.length ∧ (∀ j, j ≤ k → l.getD j 0 < 1500) ∧
      (k + 1 = l.length ∨ 1500 ≤ l.getD (k + 1) 0)) := by
  induction l with
  | nil => intro i e; left; exact ⟨rfl, Or.inl rfl⟩
  | cons a l ih =>
    intro i e
    unfold lowPrefix
    split_ifs with h
    · right
      rcases ih (i + 1) i with ⟨h1, h2⟩ | ⟨k, h1, h2, h3, h4⟩
      · refine ⟨0, by omega, by simp, ?_, ?_⟩
        · intro j hj
          obtain rfl : j = 0 := by omega
          simpa using h
        · rcases h2 with rfl | h2
          · left; rfl
          · right; simpa using h2
      · refine ⟨k + 1, by omega, by simp; omega, ?_, ?_⟩
        · intro j hj
          cases j with
          | zero => simpa using h
          | succ j => simpa using h3 j (by omega)
        · rcases h4 with h4 | h4
          · left; simp; omega
          · right; simpa using h4
    · left
      push Not at h
      exact ⟨rfl, Or.inr (by simpa using h)⟩

theorem toStart_spec (spd : List ℝ) (k : ℕ) : ∀ s tmp,
    (toStart spd k s tmp = s ∧ (k = 0 ∨ spd.getD (k - 1) 0 < 30)) ∨
    (toStart spd k s tmp < k ∧ ∀ j, toStart spd k s tmp ≤ j → j < k → 5 ≤ spd.getD j 0) := by
  induction k with
  | zero => intro s tmp; left; exact ⟨rfl, Or.inl rfl⟩
  | succ k ih =>
    intro s tmp
    unfold toStart
    simp only
    split_ifs with h1 h2
    · left; exact ⟨rfl, Or.inr h1.1⟩
    · left; exact ⟨rfl, Or.inr (show spd.getD k 0 < 30 by linarith)⟩
    · right
      push Not at h2
      rcases ih k (spd.getD k 0) with ⟨h3, -⟩ | ⟨h3, h4⟩
      · rw [h3]
        refine ⟨by omega, ?_⟩
        intro j hj hj'
        obtain rfl : j = k := by omega
        exact h2
      · refine ⟨by omega, ?_⟩
        intro j hj hj'
        rcases Nat.lt_or_ge j k with c | c
        · exact h4 j hj c
        · obtain rfl : j = k := by omega
          exact h2

theorem lowSuffix_spec (alt : List ℝ) (k : ℕ) : ∀ s,
    (lowSuffix alt k s = s ∧ (k = 0 ∨ 1500 ≤ alt.getD (k - 1) 0)) ∨
    (lowSuffix alt k s < k ∧ (∀ j, lowSuffix alt k s ≤ j → j < k → alt.getD j 0 < 1500) ∧
      (lowSuffix alt k s = 0 ∨ 1500 ≤ alt.getD (lowSuffix alt k s - 1) 0)) := by
  induction k with
  | zero => intro s; left; exact ⟨rfl, Or.inl rfl⟩
  | succ k ih =>
    intro s
    unfold lowSuffix
    split_ifs with h
    · right
      rcases ih k with ⟨h3, h4⟩ | ⟨h3, h4, h5⟩
      · rw [h3]
        refine ⟨by omega, ?_, h4⟩
        intro j hj hj'
        obtain rfl : j = k := by omega
        exact h
      · refine ⟨by omega, ?_, h5⟩
        intro j hj hj'
        rcases Nat.lt_or_ge j k with c | c
        · exact h4 j hj c
        · obtain rfl : j = k := by omega
          exact h
    · left
      push Not at h
      exact ⟨rfl, Or.inr h⟩

theorem ldEnd_spec (spd : List ℝ) (k : ℕ) : ∀ i e tmp,
    ldEnd spd k i e tmp = e ∨
    (i ≤ ldEnd spd k i e tmp ∧ ldEnd spd k i e tmp < i + k ∧
      ∀ j, i ≤ j → j ≤ ldEnd spd k i e tmp → 30 ≤ spd.getD j 0) := by
  induction k with
  | zero => intro i e tmp; left; rfl
  | succ k ih =>
    intro i e tmp
    unfold ldEnd
    simp only
    split_ifs with h1 h2
    · left; rfl
    · left; rfl
    · right
      push Not at h2
      rcases ih (i + 1) i (spd.getD i 0) with h3 | ⟨h3, h4, h5⟩
      · rw [h3]
        refine ⟨le_refl _, by omega, ?_⟩
        intro j hj hj'
        obtain rfl : j = i := by omega
        exact h2
      · refine ⟨by omega, by omega, ?_⟩
        intro j hj hj'
        rcases Nat.lt_or_ge i j with c | c
        · exact h5 j (by omega) hj'
        · obtain rfl : j = i := by omega
          exact h2

theorem ldEnd_fast (spd : List ℝ) (k : ℕ) : ∀ i e tmp, 0 < k →
    (∀ j, i ≤ j → j < i + k → 50 < spd.getD j 0) → ldEnd spd k i e tmp = i + k - 1 := by
  induction k with
  | zero => intro i e tmp h; omega
  | succ k ih =>
    intro i e tmp _ h
    unfold ldEnd
    simp only
    have hi := h i (le_refl _) (by omega)
    rw [if_neg (by rintro ⟨h1, -⟩; linarith), if_neg (by linarith)]
    rcases Nat.eq_zero_or_pos k with rfl | hk
    · rfl
    · rw [ih (i + 1) i _ hk (fun j h1 h2 => h j (by omega) (by omega))]
      omega

end Verif.Phase
