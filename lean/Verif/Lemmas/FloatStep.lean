import Verif.Lemmas.Float

/-!
# Adding up in floating point
-/

namespace Verif

namespace Format

theorem max64 : (2 : ℝ) ^ (500 : ℤ) ≤ binary64.max := by
  unfold max binary64
  have h1 : (2 : ℝ) ^ (500 : ℤ) ≤ 2 ^ (971 : ℤ) := zpow_le_zpow_right₀ (by norm_num) (by norm_num)
  have h2 : (0 : ℝ) < 2 ^ (971 : ℤ) := by positivity
  have h3 : (1 : ℝ) ≤ 2 ^ 53 - 1 := by norm_num
  exact h1.trans (le_mul_of_one_le_left h2.le h3)

theorem u64 : binary64.u = 2 ^ (-53 : ℤ) := rfl

theorem u64_le : binary64.u ≤ 1.2e-16 := by rw [u64]; norm_num

theorem repr_pow {f : Format} {k : ℤ} (hp : 1 ≤ f.prec) (h1 : f.emin ≤ k) (h2 : k ≤ f.emax) :
    f.Repr (2 ^ k) :=
  ⟨1, k, by
    rw [abs_one]
    exact one_lt_pow₀ (by norm_num) (by omega), h1, h2, by simp⟩

theorem Repr.neg {f : Format} {x : ℝ} (h : f.Repr x) : f.Repr (-x) := by
  obtain ⟨m, e, h1, h2, h3, rfl⟩ := h
  exact ⟨-m, e, by rwa [abs_neg], h2, h3, by push_cast; ring⟩

/-- Next to a power of two there is a gap. -/
theorem Repr.gap {f : Format} {y : ℝ} {k : ℤ} (h : f.Repr y) (hk : (2 : ℝ) ^ k < y) :
    (2 : ℝ) ^ k + 2 ^ (k - f.prec + 1) ≤ y := by
  obtain ⟨m, e, hm, -, -, rfl⟩ := h
  have hm' : (m : ℝ) < 2 ^ (f.prec : ℤ) := by
    have := lt_of_le_of_lt (le_abs_self m) hm
    rw [zpow_natCast]
    exact_mod_cast this
  have he : (0 : ℝ) < 2 ^ e := by positivity
  rcases lt_or_ge e (k - f.prec + 1) with h1 | h1
  · exfalso
    have h2 : (m : ℝ) * 2 ^ e ≤ 2 ^ (f.prec : ℤ) * 2 ^ e := by
      exact mul_le_mul_of_nonneg_right hm'.le he.le
    rw [← zpow_add₀ (by norm_num)] at h2
    have h3 : (2 : ℝ) ^ ((f.prec : ℤ) + e) ≤ 2 ^ k :=
      zpow_le_zpow_right₀ (by norm_num) (by omega)
    linarith
  · obtain ⟨j, hj⟩ : ∃ j : ℕ, e = (k - f.prec + 1) + j := ⟨(e - (k - f.prec + 1)).toNat, by omega⟩
    set d : ℝ := 2 ^ (k - f.prec + 1) with hd
    have hd0 : 0 < d := by positivity
    rcases Nat.eq_zero_or_pos f.prec with hp | hp
    · exfalso
      rw [hp] at hm
      have : m = 0 := by
        have := abs_lt.1 hm
        simp at this
        omega
      subst this
      have : (0 : ℝ) < 2 ^ k := by positivity
      simp at hk
      linarith
    have e1 : (2 : ℝ) ^ k = 2 ^ (f.prec - 1) * d := by
      rw [hd, ← zpow_natCast, ← zpow_add₀ (by norm_num)]
      congr 1
      omega
    have e2 : (m : ℝ) * 2 ^ e = (m * 2 ^ j : ℤ) * d := by
      rw [hj, zpow_add₀ (by norm_num), zpow_natCast]
      push_cast
      ring
    rw [e2] at hk ⊢
    rw [e1] at hk ⊢
    have h4 : ((2 : ℤ) ^ (f.prec - 1) : ℤ) < m * 2 ^ j := by
      have := lt_of_mul_lt_mul_right hk hd0.le
      exact_mod_cast this
    have h5 : ((2 : ℝ) ^ (f.prec - 1) + 1) ≤ ((m * 2 ^ j : ℤ) : ℝ) := by
      have : (2 : ℤ) ^ (f.prec - 1) + 1 ≤ m * 2 ^ j := h4
      exact_mod_cast this
    nlinarith

end Format

namespace Machine
variable {f : Format} (M : Machine f)

theorem rnd_le {x y : ℝ} (hx : |x| ≤ f.max) (hy : f.Repr y) (h : x ≤ y) : M.rnd x ≤ y := by
  have h1 := (abs_le.1 (M.rnd_near x hx y hy)).2
  rw [abs_of_nonneg (by linarith)] at h1
  linarith

theorem rnd_ge {x y : ℝ} (hx : |x| ≤ f.max) (hy : f.Repr y) (h : y ≤ x) : y ≤ M.rnd x := by
  have h1 := (abs_le.1 (M.rnd_near x hx y hy)).1
  rw [abs_of_nonpos (by linarith)] at h1
  linarith

/-- A sum that exceeds a power of two by less than half a unit in the last place is rounded back. -/
theorem rnd_stall {x : ℝ} {k : ℤ} (hx : |x| ≤ f.max) (hk : f.Repr (2 ^ k))
    (h : x < 2 ^ k + 2 ^ (k - f.prec)) : M.rnd x ≤ 2 ^ k := by
  rcases le_or_gt x (2 ^ k) with h0 | h0
  · exact M.rnd_le hx hk h0
  · by_contra hc
    have h1 := (M.rnd_repr x hx).gap (not_le.1 hc)
    have h2 := (abs_le.1 (M.rnd_near x hx _ hk)).2
    rw [abs_of_nonpos (by linarith)] at h2
    have e : (2 : ℝ) ^ (k - f.prec + 1) = 2 * 2 ^ (k - f.prec) := by
      rw [zpow_add₀ (by norm_num)]; ring
    rw [e] at h1
    linarith

/-- The mirror image. -/
theorem rnd_stall_neg {x : ℝ} {k : ℤ} (hx : |x| ≤ f.max) (hk : f.Repr (2 ^ k))
    (h : -(2 ^ k + 2 ^ (k - f.prec)) < x) : -2 ^ k ≤ M.rnd x := by
  rcases le_or_gt (-2 ^ k) x with h0 | h0
  · exact M.rnd_ge hx hk.neg h0
  · by_contra hc
    have h1 := (M.rnd_repr x hx).neg.gap (k := k) (by linarith [not_le.1 hc])
    have h2 := (abs_le.1 (M.rnd_near x hx _ hk.neg)).1
    rw [abs_of_nonneg (by linarith)] at h2
    have e : (2 : ℝ) ^ (k - f.prec + 1) = 2 * 2 ^ (k - f.prec) := by
      rw [zpow_add₀ (by norm_num)]; ring
    rw [e] at h1
    linarith

end Machine

section
variable (M : Machine .binary64)

theorem big64 {x : ℝ} (h : |x| ≤ 2 ^ (500 : ℤ)) : |x| ≤ Format.binary64.max := h.trans Format.max64

theorem abs_rnd64 {x : ℝ} (h1 : |x| ≤ 10 ^ 9) : |M.rnd x - x| ≤ 1.2e-16 * |x| + 1e-40 := by
  have h := M.rnd_err Format.binary64_wide (x := x) (h1.trans (by norm_num))
  have hu := Format.u64_le
  have hu0 := Format.u_pos .binary64
  have hm : max |x| (2 ^ (-126 : ℤ)) ≤ |x| + 1e-37 :=
    max_le (by norm_num) ((show (2:ℝ) ^ (-126 : ℤ) ≤ 1e-37 by norm_num).trans
      (by linarith [abs_nonneg x]))
  have := abs_nonneg x
  calc _ ≤ Format.binary64.u * max |x| (2 ^ (-126 : ℤ)) := h
    _ ≤ 1.2e-16 * (|x| + 1e-37) := mul_le_mul hu hm (by positivity) (by norm_num)
    _ ≤ _ := by nlinarith

/-- One step of a sum whose terms are not too small. -/
theorem step64 {a p : ℝ} (ha : |a| ≤ 10 ^ 8) (h1 : 1 / 100000 ≤ |p|) (h2 : |p| ≤ 10 ^ 6) :
    |M.rnd (a + M.rnd p) - (a + p)| ≤ 1 / 100 * |p| := by
  have e1 := abs_rnd64 M (x := p) (h2.trans (by norm_num))
  have b1 : |M.rnd p| ≤ |p| + (1.2e-16 * |p| + 1e-40) := by
    calc |M.rnd p| = |p + (M.rnd p - p)| := by ring_nf
      _ ≤ |p| + |M.rnd p - p| := abs_add_le _ _
      _ ≤ _ := by linarith
  have b2 : |a + M.rnd p| ≤ |a| + |M.rnd p| := abs_add_le _ _
  have e2 := abs_rnd64 M (x := a + M.rnd p) (b2.trans (by nlinarith))
  calc |M.rnd (a + M.rnd p) - (a + p)| =
        |(M.rnd (a + M.rnd p) - (a + M.rnd p)) + (M.rnd p - p)| := by ring_nf
    _ ≤ |M.rnd (a + M.rnd p) - (a + M.rnd p)| + |M.rnd p - p| := abs_add_le _ _
    _ ≤ _ := by nlinarith

/-- The same when the term is a number in memory. -/
theorem add64 {a p : ℝ} (ha : |a| ≤ 10 ^ 8) (h1 : 1 / 100000 ≤ |p|) (h2 : |p| ≤ 10 ^ 6) :
    |M.rnd (a + p) - (a + p)| ≤ 1 / 100 * |p| := by
  have b2 : |a + p| ≤ |a| + |p| := abs_add_le _ _
  have e2 := abs_rnd64 M (x := a + p) (b2.trans (by nlinarith))
  nlinarith

end

/-- The sum of `n` equal terms, added one by one. -/
noncomputable def Machine.sums {f : Format} (M : Machine f) (w : ℝ) : ℕ → ℝ
  | 0 => 0
  | n + 1 => M.rnd (M.sums w n + w)

theorem Machine.sums_err {f : Format} (M : Machine f) (hw : f.Wide) {w : ℝ} (h1 : 1 / 10 ^ 9 ≤ w)
    (h2 : w ≤ 10 ^ 9) (n : ℕ) (hn : n * f.u ≤ 1) (hm : (n : ℝ) ≤ 10 ^ 18) : |M.sums w n - n * w| ≤ n ^ 2 * f.u * w := by
  have hu := f.u_pos
  have hw0 : 0 < w := lt_of_lt_of_le (by norm_num) h1
  induction n with
  | zero => simp [Machine.sums]
  | succ n ih =>
    push_cast at hn hm ⊢
    have hn' : (n : ℝ) * f.u ≤ 1 := by nlinarith
    have ih := ih hn' (by linarith)
    have hn0 : (0 : ℝ) ≤ n := Nat.cast_nonneg n
    have hsq : (n : ℝ) ^ 2 * f.u ≤ n := by nlinarith
    obtain ⟨l, r⟩ := abs_le.1 ih
    have hs1 : M.sums w n + w ≤ (n + 1) * w + n ^ 2 * f.u * w := by linarith
    have hs0 : w ≤ M.sums w n + w := by
      have : (n : ℝ) ^ 2 * f.u * w ≤ n * w := mul_le_mul_of_nonneg_right hsq hw0.le
      linarith
    have hbig : |M.sums w n + w| ≤ 2 ^ (127 : ℤ)  := by
      rw [abs_of_pos (by linarith)]
      have h4 : (n : ℝ) ^ 2 * f.u * w ≤ n * w := mul_le_mul_of_nonneg_right hsq hw0.le
      have h5 : ((n : ℝ) + 1) * w ≤ 10 ^ 18 * 10 ^ 9 := mul_le_mul hm h2 hw0.le (by norm_num)
      have h6 : (2 : ℝ) * (10 ^ 18 * 10 ^ 9) ≤ 2 ^ (127 : ℤ) := by norm_num
      linarith
    have e := M.rnd_err hw hbig
    rw [abs_of_pos (a := M.sums w n + w) (by linarith), max_eq_left (by
      refine le_trans ?_ (h1.trans hs0)
      norm_num)] at e
    show |M.rnd (M.sums w n + w) - _| ≤ _
    calc |M.rnd (M.sums w n + w) - (n + 1) * w| =
          |(M.rnd (M.sums w n + w) - (M.sums w n + w)) + (M.sums w n - n * w)| := by ring_nf
      _ ≤ f.u * (M.sums w n + w) + n ^ 2 * f.u * w := (abs_add_le _ _).trans (add_le_add e ih)
      _ ≤ f.u * ((n + 1) * w + n ^ 2 * f.u * w) + n ^ 2 * f.u * w := by gcongr
      _ ≤ (n + 1) ^ 2 * f.u * w := by
        have : f.u * (n ^ 2 * f.u * w) ≤ f.u * (n * w) := by
          gcongr
        nlinarith

/-- Whole numbers are added exactly. -/
theorem sums_int (M : Machine .binary64) (k n : ℕ) (h : n * k < 2 ^ 53) :
    M.sums k n = n * k := by
  induction n with
  | zero => simp [Machine.sums]
  | succ n ih =>
    have h' : n * k < 2 ^ 53 := lt_of_le_of_lt (Nat.mul_le_mul_right k (Nat.le_succ n)) h
    have e : M.sums k n + k = (((n + 1) * k : ℕ) : ℝ) := by rw [ih h']; push_cast; ring
    show M.rnd (M.sums k n + k) = _
    have h2 : (((n + 1) * k : ℕ) : ℝ) ≤ 2 ^ 53 := by exact_mod_cast h.le
    rw [e, M.rnd_of_repr (big64 ?_) ⟨((n + 1) * k : ℕ), 0, ?_, by decide, by decide, by simp⟩]
    · push_cast; ring
    · rw [abs_of_nonneg (Nat.cast_nonneg _)]
      exact h2.trans (by rw [← zpow_natCast]; exact zpow_le_zpow_right₀ (by norm_num) (by norm_num))
    · rw [Nat.abs_cast]
      exact_mod_cast h

end Verif
