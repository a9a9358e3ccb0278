import Verif.Model.Arrays
import Verif.Lemmas.NR
import Mathlib.Algebra.BigOperators.Group.Finset.Basic

/-!
# Arrays that stand for `n` samples
-/

namespace Verif.Arrays
open Verif NR

/-- `a` is a column with the `n` values `u`, or a single value equal to all of them. -/
def Vals (n : ℕ) (a : Nd) (u : ℕ → NR) : Prop :=
  a.cols = 1 ∧ ((a.rows = n ∧ ∀ i < n, a.get i 0 = u i) ∨ (a.rows = 1 ∧ ∀ i < n, a.get 0 0 = u i))

/-- `a` is a column with the `n` values `u`. -/
def Col (n : ℕ) (a : Nd) (u : ℕ → NR) : Prop := a.cols = 1 ∧ a.rows = n ∧ ∀ i < n, a.get i 0 = u i

/-- `a` is a row with the `n` values `u`. -/
def Row (n : ℕ) (a : Nd) (u : ℕ → NR) : Prop := a.rows = 1 ∧ a.cols = n ∧ ∀ i < n, a.get 0 i = u i

theorem Col.vals {n : ℕ} {a : Nd} {u : ℕ → NR} (h : Col n a u) : Vals n a u := ⟨h.1, .inl h.2⟩

theorem vals_num (n : ℕ) (x : NR) : Vals n (.num x) fun _ => x := ⟨rfl, .inr ⟨rfl, fun _ _ => rfl⟩⟩

theorem col_num (x : NR) : Col 1 (Nd.num x).col fun _ => x := ⟨rfl, rfl, fun _ _ => rfl⟩

theorem col_vec (n : ℕ) (u : ℕ → NR) : Col n (Nd.vec n u).col u := by
  refine ⟨rfl, by simp [Nd.vec, Nd.col], fun i hi => ?_⟩
  simp only [Nd.vec, Nd.col]
  rw [Nat.mod_eq_of_lt hi]

theorem Col.congr {n : ℕ} {a : Nd} {u v : ℕ → NR} (h : Col n a u) (e : ∀ i < n, u i = v i) : Col n a v :=
  ⟨h.1, h.2.1, fun i hi => (h.2.2 i hi).trans (e i hi)⟩

theorem Row.congr {n : ℕ} {a : Nd} {u v : ℕ → NR} (h : Row n a u) (e : ∀ i < n, u i = v i) : Row n a v :=
  ⟨h.1, h.2.1, fun i hi => (h.2.2 i hi).trans (e i hi)⟩

theorem Col.map {n : ℕ} {a : Nd} {u : ℕ → NR} (h : Col n a u) (f : NR → NR) :
    Col n (a.map f) fun i => f (u i) :=
  ⟨h.1, h.2.1, fun i hi => congrArg f (h.2.2 i hi)⟩

theorem Vals.map {n : ℕ} {a : Nd} {u : ℕ → NR} (h : Vals n a u) (f : NR → NR) :
    Vals n (a.map f) fun i => f (u i) := by
  refine ⟨h.1, ?_⟩
  rcases h.2 with ⟨h1, h2⟩ | ⟨h1, h2⟩
  · exact .inl ⟨h1, fun i hi => congrArg f (h2 i hi)⟩
  · exact .inr ⟨h1, fun i hi => congrArg f (h2 i hi)⟩

theorem Col.col {n : ℕ} {a : Nd} {u : ℕ → NR} (h : Col n a u) : Col n a.col u := by
  obtain ⟨h1, h2, h3⟩ := h
  refine ⟨rfl, by simp [Nd.col, h1, h2], fun i hi => ?_⟩
  simp only [Nd.col, h1, Nat.div_one, Nat.mod_one]
  exact h3 i hi

theorem Vals.col {n : ℕ} {a : Nd} {u : ℕ → NR} (h : Vals n a u) : Vals n a.col u := by
  obtain ⟨h1, h⟩ := h
  refine ⟨rfl, ?_⟩
  rcases h with ⟨h2, h3⟩ | ⟨h2, h3⟩
  · refine .inl ⟨by simp [Nd.col, h1, h2], fun i hi => ?_⟩
    simp only [Nd.col, h1, Nat.div_one, Nat.mod_one]
    exact h3 i hi
  · refine .inr ⟨by simp [Nd.col, h1, h2], fun i hi => ?_⟩
    simp only [Nd.col, h1, Nat.div_one, Nat.mod_one]
    exact h3 i hi

theorem Row.col {n : ℕ} {a : Nd} {u : ℕ → NR} (h : Row n a u) : Col n a.col u := by
  obtain ⟨h1, h2, h3⟩ := h
  refine ⟨rfl, by simp [Nd.col, h1, h2], fun i hi => ?_⟩
  simp only [Nd.col, h2]
  rw [Nat.div_eq_of_lt hi, Nat.mod_eq_of_lt hi]
  exact h3 i hi

theorem Col.toScalar {n : ℕ} {a : Nd} {u : ℕ → NR} (h : Col n a u) : Col n a.toScalar u := by
  obtain ⟨h1, h2, h3⟩ := h
  unfold Nd.toScalar
  split_ifs with hs
  · rw [h1, h2, mul_one] at hs
    subst hs
    refine ⟨rfl, rfl, fun i hi => ?_⟩
    have : i = 0 := by omega
    subst this
    exact h3 0 hi
  · exact ⟨h1, h2, h3⟩

theorem Row.toScalar {n : ℕ} {a : Nd} {u : ℕ → NR} (h : Row n a u) : Row n a.toScalar u := by
  obtain ⟨h1, h2, h3⟩ := h
  unfold Nd.toScalar
  split_ifs with hs
  · rw [h1, h2, one_mul] at hs
    subst hs
    refine ⟨rfl, rfl, fun i hi => ?_⟩
    have : i = 0 := by omega
    subst this
    exact h3 0 hi
  · exact ⟨h1, h2, h3⟩

theorem toScalar_one {a : Nd} {u : ℕ → NR} (h : Col 1 a u) : a.toScalar = .num (u 0) := by
  unfold Nd.toScalar
  rw [if_pos (by rw [h.1, h.2.1]), h.2.2 0 one_pos]

theorem Vals.at {n : ℕ} {a : Nd} {u : ℕ → NR} (h : Vals n a u) {i : ℕ} (hi : i < n) (j : ℕ) :
    a.at i j = u i := by
  obtain ⟨h1, h⟩ := h
  unfold Nd.at
  have hj : idx a.cols j = 0 := by simp [idx, h1]
  rw [hj]
  rcases h with ⟨h2, h3⟩ | ⟨h2, h3⟩
  · by_cases hn : n = 1
    · subst hn
      have : i = 0 := by omega
      subst this
      simp [idx, h2, h3 0 one_pos]
    · rw [show idx a.rows i = i by simp [idx, h2, hn]]
      exact h3 i hi
  · rw [show idx a.rows i = 0 by simp [idx, h2]]
    exact h3 i hi

theorem bdim_same (n : ℕ) : bdim n n = .ok n := by
  unfold bdim
  split_ifs with h1 h2
  · rfl
  · rfl
  · exact absurd (Or.inr rfl) h2

theorem bdim_left (n : ℕ) : bdim 1 n = .ok n := rfl

theorem bdim_right (n : ℕ) : bdim n 1 = .ok n := by
  unfold bdim
  split_ifs with h1 h2
  · rw [h1]
  · rfl
  · exact absurd (Or.inl rfl) h2

/-- Sizes of broadcast columns. -/
theorem vals_bdim {n : ℕ} {a b : Nd} {u v : ℕ → NR} (ha : Vals n a u) (hb : Vals n b v) :
    ∃ r, bdim a.rows b.rows = .ok r ∧ (r = n ∨ (a.rows = 1 ∧ b.rows = 1 ∧ r = 1)) := by
  rcases ha.2 with ⟨h1, -⟩ | ⟨h1, -⟩ <;> rcases hb.2 with ⟨h2, -⟩ | ⟨h2, -⟩ <;> rw [h1, h2]
  · exact ⟨n, bdim_same n, .inl rfl⟩
  · exact ⟨n, bdim_right n, .inl rfl⟩
  · exact ⟨n, bdim_left n, .inl rfl⟩
  · exact ⟨1, rfl, .inr ⟨rfl, rfl, rfl⟩⟩

theorem op2_vals {n : ℕ} {a b : Nd} {u v : ℕ → NR} (f : NR → NR → NR) (ha : Vals n a u)
    (hb : Vals n b v) : ∃ c, op2 f a b = .ok c ∧ Vals n c fun i => f (u i) (v i) := by
  obtain ⟨r, hr, h⟩ := vals_bdim ha hb
  have hc : bdim a.cols b.cols = .ok 1 := by rw [ha.1, hb.1]; rfl
  refine ⟨⟨max a.ndim b.ndim, r, 1, fun i j => f (a.at i j) (b.at i j)⟩, ?_, rfl, ?_⟩
  · simp only [op2, hr, hc, bind, Except.bind, pure, Except.pure]
  · rcases h with h | ⟨h1, h2, h⟩
    · exact .inl ⟨h, fun i hi => by simp only; rw [ha.at hi, hb.at hi]⟩
    · refine .inr ⟨h, fun i hi => ?_⟩
      have e1 : a.at 0 0 = a.at i 0 := by simp [Nd.at, idx, h1]
      have e2 : b.at 0 0 = b.at i 0 := by simp [Nd.at, idx, h2]
      simp only
      rw [e1, e2, ha.at hi, hb.at hi]

theorem op2_col {n : ℕ} {a b : Nd} {u v : ℕ → NR} (f : NR → NR → NR) (ha : Vals n a u)
    (hb : Vals n b v) (hn : a.rows = n ∨ b.rows = n) :
    ∃ c, op2 f a b = .ok c ∧ Col n c fun i => f (u i) (v i) := by
  obtain ⟨r, hr, h⟩ := vals_bdim ha hb
  have hr' : r = n := by
    rcases h with h | ⟨h1, h2, h⟩
    · exact h
    · rcases hn with hn | hn <;> omega
  have hc : bdim a.cols b.cols = .ok 1 := by rw [ha.1, hb.1]; rfl
  refine ⟨⟨max a.ndim b.ndim, r, 1, fun i j => f (a.at i j) (b.at i j)⟩, ?_, rfl, hr', ?_⟩
  · simp only [op2, hr, hc, bind, Except.bind, pure, Except.pure]
  · exact fun i hi => by simp only; rw [ha.at hi, hb.at hi]

theorem op3_col {n : ℕ} {a b c : Nd} {u v w : ℕ → NR} (f : NR → NR → NR → NR) (ha : Col n a u)
    (hb : Vals n b v) (hc : Vals n c w) :
    ∃ d, op3 f a b c = .ok d ∧ Col n d fun i => f (u i) (v i) (w i) := by
  have h1 : bdim a.rows b.rows = .ok n := by
    rcases hb.2 with ⟨h, -⟩ | ⟨h, -⟩
    · rw [ha.2.1, h]; exact bdim_same n
    · rw [ha.2.1, h]; exact bdim_right n
  have h2 : bdim n c.rows = .ok n := by
    rcases hc.2 with ⟨h, -⟩ | ⟨h, -⟩
    · rw [h]; exact bdim_same n
    · rw [h]; exact bdim_right n
  have h3 : bdim a.cols b.cols = .ok 1 := by rw [ha.1, hb.1]; rfl
  have h4 : bdim 1 c.cols = .ok 1 := by rw [hc.1]; rfl
  refine ⟨⟨max (max a.ndim b.ndim) c.ndim, n, 1, fun i j => f (a.at i j) (b.at i j) (c.at i j)⟩, ?_, rfl,
    rfl, ?_⟩
  · simp only [op3, h1, h2, h3, h4, bind, Except.bind, pure, Except.pure]
  · exact fun i hi => by simp only; rw [ha.vals.at hi, hb.at hi, hc.at hi]

/-- A column times a row is a table. -/
theorem op2_table {n : ℕ} {a b : Nd} {u v : ℕ → NR} (f : NR → NR → NR) (ha : Col n a u)
    (hb : Row n b v) : ∃ c, op2 f a b = .ok c ∧ c.rows = n ∧ c.cols = n ∧
      ∀ i < n, ∀ j < n, c.get i j = f (u i) (v j) := by
  have hr : bdim a.rows b.rows = .ok n := by rw [ha.2.1, hb.1]; exact bdim_right n
  have hc : bdim a.cols b.cols = .ok n := by rw [ha.1, hb.2.1]; exact bdim_left n
  refine ⟨⟨max a.ndim b.ndim, n, n, fun i j => f (a.at i j) (b.at i j)⟩, ?_, rfl, rfl, ?_⟩
  · simp only [op2, hr, hc, bind, Except.bind, pure, Except.pure]
  · intro i hi j hj
    simp only
    rw [ha.vals.at hi]
    congr 1
    unfold Nd.at
    rw [show idx b.rows i = 0 by simp [idx, hb.1]]
    by_cases hn : n = 1
    · have : j = 0 := by omega
      subst this
      rw [show idx b.cols 0 = 0 by simp [idx]]
      exact hb.2.2 0 hj
    · rw [show idx b.cols j = j by simp [idx, hb.2.1, hn]]
      exact hb.2.2 j hj

theorem nsum_val (n : ℕ) (f : ℕ → NR) (g : ℕ → ℝ) (h : ∀ i < n, f i = val (g i)) :
    nsum n f = val (∑ i ∈ Finset.range n, g i) := by
  induction n with
  | zero => rfl
  | succ n ih =>
    rw [nsum, ih fun i hi => h i (by omega), h n (by omega), val_add, Finset.sum_range_succ]

theorem npow_val (x : ℝ) (n : ℕ) : (val x : NR) ^ n = val (x ^ n) := by
  by_cases hn : n = 0
  · subst hn; rw [pow_zero]; rfl
  · exact val_pow x n hn

theorem einsum_row {r c n : ℕ} {coef : List ℝ} (hl : coef.length = r * c) {p q : ℕ → ℕ → NR}
    {p' q' : ℕ → ℕ → ℝ} (hp : ∀ j < c, ∀ t < n, p j t = val (p' j t))
    (hq : ∀ i < r, ∀ t < n, q i t = val (q' i t)) :
    ∃ a, einsum r c coef n p n q = .ok a ∧ Row n a fun t => val (∑ i ∈ Finset.range r,
      ∑ j ∈ Finset.range c, coef.getD (i * c + j) 0 * p' j t * q' i t) := by
  refine ⟨⟨1, 1, n, fun _ t => nsum r fun i => nsum c fun j =>
    .val (coef.getD (i * c + j) 0) * p j (idx n t) * q i (idx n t)⟩, ?_, rfl, rfl, ?_⟩
  · simp only [einsum, hl, bdim_same, bind, Except.bind, pure, Except.pure, ne_eq, not_true_eq_false,
      if_false]
  · intro t ht
    have ht' : idx n t = t := by
      unfold idx; split_ifs with h
      · omega
      · rfl
    simp only [ht']
    refine nsum_val _ _ _ fun i hi => nsum_val _ _ _ fun j hj => ?_
    rw [hp j hj t ht, hq i hi t ht, val_mul, val_mul]

end Verif.Arrays
