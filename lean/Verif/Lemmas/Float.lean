import Verif.Prelude.Float
import Mathlib.Analysis.SpecialFunctions.Log.Basic
import Mathlib.Data.Int.Log

/-!
# Rounding errors

The error of one rounding, and a calculus of accumulated relative errors. Relative errors are
measured as logarithms in units of `κ = -log (1 - u)`, so that they add under multiplication and
division.
-/

namespace Verif
open Real

namespace Format
variable {f : Format}

theorem u_pos (f : Format) : 0 < f.u := by unfold u; positivity

theorem Wide.u_le (hw : f.Wide) : f.u ≤ 2 ^ (-24 : ℤ) := by
  unfold u
  exact zpow_le_zpow_right₀ (by norm_num) (by have := hw.prec; omega)

theorem Wide.u_le' (hw : f.Wide) : f.u ≤ 1 / 16000000 :=
  hw.u_le.trans (by norm_num)

theorem Wide.tiny_le (hw : f.Wide) : f.tiny ≤ 2 ^ (-126 : ℤ) := by
  unfold tiny
  exact zpow_le_zpow_right₀ (by norm_num) hw.small

theorem tiny_pos (f : Format) : 0 < f.tiny := by unfold tiny; positivity

theorem Wide.le_max (hw : f.Wide) : (2 : ℝ) ^ (127 : ℤ) ≤ f.max := by
  unfold max
  have h1 : (2 : ℝ) ^ (24 : ℕ) - 1 ≤ 2 ^ f.prec - 1 :=
    sub_le_sub_right (pow_le_pow_right₀ (by norm_num) hw.prec) _
  have h2 : (2 : ℝ) ^ (104 : ℤ) ≤ 2 ^ f.emax := zpow_le_zpow_right₀ (by norm_num) hw.large
  calc (2 : ℝ) ^ (127 : ℤ) ≤ (2 ^ (24 : ℕ) - 1) * 2 ^ (104 : ℤ) := by norm_num
    _ ≤ _ := mul_le_mul h1 h2 (by positivity) (le_trans (by norm_num) h1)

/-- Between representable numbers of one exponent the gap is one unit. -/
theorem near_of_exp (hp : 0 < f.prec) {x : ℝ} {e : ℤ} (h1 : f.emin ≤ e) (h2 : e ≤ f.emax)
    (hx : |x| < (2 : ℝ) ^ (f.prec + e)) (hm : |x| ≤ f.max) :
    ∃ y, f.Repr y ∧ |y - x| ≤ (2 : ℝ) ^ (e - 1) := by
  have he : (0 : ℝ) < 2 ^ e := by positivity
  set m := round (x / 2 ^ e) with hmdef
  have hr : |x / 2 ^ e - m| ≤ 1 / 2 := abs_sub_round _
  have hd : |(m : ℝ) * 2 ^ e - x| ≤ (2 : ℝ) ^ (e - 1) := by
    have : (m : ℝ) * 2 ^ e - x = -(x / 2 ^ e - m) * 2 ^ e := by field_simp; ring
    rw [this, abs_mul, abs_neg, abs_of_pos he, zpow_sub_one₀ (by norm_num)]
    calc _ ≤ 1 / 2 * (2 : ℝ) ^ e := mul_le_mul_of_nonneg_right hr he.le
      _ = _ := by ring
  have hxe : |x / 2 ^ e| < 2 ^ f.prec := by
    rw [abs_div, abs_of_pos he, div_lt_iff₀ he]
    rwa [zpow_add₀ (by norm_num), zpow_natCast] at hx
  have hmle : |m| ≤ 2 ^ f.prec := by
    have h3 : |(m : ℝ)| < 2 ^ f.prec + 1 := by
      have := abs_sub_abs_le_abs_sub (m : ℝ) (x / 2 ^ e)
      rw [abs_sub_comm] at this
      linarith
    have h4 : ((|m| : ℤ) : ℝ) < ((2 ^ f.prec + 1 : ℤ) : ℝ) := by push_cast; exact h3
    have := Int.cast_lt.1 h4
    omega
  rcases lt_or_eq_of_le hmle with hlt | heq
  · exact ⟨m * 2 ^ e, ⟨m, e, hlt, h1, h2, rfl⟩, hd⟩
  · rcases lt_or_eq_of_le h2 with hlt | hee
    · -- the next exponent
      obtain ⟨k, hk⟩ : ∃ k, m = 2 * k := by
        have : (2 : ℤ) ∣ |m| := heq ▸ dvd_pow_self 2 hp.ne'
        exact (dvd_abs _ _).1 this
      refine ⟨m * 2 ^ e, ⟨k, e + 1, ?_, by omega, by omega, ?_⟩, hd⟩
      · have : |m| = 2 * |k| := by rw [hk, abs_mul]; rfl
        have h0 : (0 : ℤ) < 2 ^ f.prec := by positivity
        omega
      · rw [hk, zpow_add_one₀ (by norm_num)]; push_cast; ring
    · exfalso
      have : |x / 2 ^ e| ≤ 2 ^ f.prec - 1 := by
        rw [abs_div, abs_of_pos he, div_le_iff₀ he, hee]; exact hm
      have h3 : |(m : ℝ)| ≤ 2 ^ f.prec - 1 + 1 / 2 := by
        have := abs_sub_abs_le_abs_sub (m : ℝ) (x / 2 ^ e)
        rw [abs_sub_comm] at this
        linarith
      have h5 : |(m : ℝ)| = 2 ^ f.prec := by rw [← Int.cast_abs, heq]; push_cast; rfl
      linarith

/-- Some representable number is within half a unit in the last place. -/
theorem exists_close (hw : f.Wide) {x : ℝ} (hx : |x| ≤ f.max) :
    ∃ y, f.Repr y ∧ |y - x| ≤ f.u * Max.max |x| f.tiny := by
  have hp : 0 < f.prec := by have := hw.prec; omega
  have hee : f.emin ≤ f.emax := by have := hw.small; have := hw.large; omega
  rcases le_or_gt f.tiny |x| with ht | ht
  · have hpos : 0 < |x| := f.tiny_pos.trans_le ht
    set k := Int.log 2 |x| with hk
    have l1 : (2 : ℝ) ^ k ≤ |x| := by
      have := Int.zpow_log_le_self (R := ℝ) (b := 2) (by norm_num) hpos
      exact_mod_cast this
    have l2 : |x| < (2 : ℝ) ^ (k + 1) := by
      have := Int.lt_zpow_succ_log_self (R := ℝ) (b := 2) (by norm_num) |x|
      exact_mod_cast this
    have h1 : f.emin ≤ k + 1 - f.prec := by
      have : (2 : ℝ) ^ (f.prec + f.emin - 1) < 2 ^ (k + 1) := lt_of_le_of_lt ht l2
      have := (zpow_lt_zpow_iff_right₀ (by norm_num : (1 : ℝ) < 2)).1 this
      omega
    have h2 : k + 1 - f.prec ≤ f.emax := by
      have h3 : f.max < (2 : ℝ) ^ (f.prec + f.emax) := by
        unfold max
        rw [zpow_add₀ (by norm_num), zpow_natCast]
        exact mul_lt_mul_of_pos_right (by linarith) (by positivity)
      have := (zpow_lt_zpow_iff_right₀ (by norm_num : (1 : ℝ) < 2)).1
        (lt_of_le_of_lt (l1.trans hx) h3)
      omega
    obtain ⟨y, hy, hd⟩ := near_of_exp hp h1 h2 (x := x)
      (by rw [show (f.prec : ℤ) + (k + 1 - f.prec) = k + 1 by ring]; exact l2) hx
    refine ⟨y, hy, hd.trans ?_⟩
    rw [show k + 1 - (f.prec : ℤ) - 1 = -f.prec + k by ring, zpow_add₀ (by norm_num)]
    exact mul_le_mul_of_nonneg_left (l1.trans (le_max_left _ _)) f.u_pos.le
  · obtain ⟨y, hy, hd⟩ := near_of_exp hp le_rfl hee (x := x)
      (ht.trans (by
        unfold tiny
        exact zpow_lt_zpow_right₀ (by norm_num) (by omega))) hx
    refine ⟨y, hy, hd.trans ?_⟩
    rw [max_eq_right ht.le]
    unfold u tiny
    rw [← zpow_add₀ (by norm_num)]
    exact zpow_le_zpow_right₀ (by norm_num) (by omega)

end Format

namespace Machine
variable {f : Format} (M : Machine f)

theorem rnd_err (hw : f.Wide) {x : ℝ} (hx : |x| ≤ 2 ^ (127 : ℤ)) :
    |M.rnd x - x| ≤ f.u * Max.max |x| (2 ^ (-126 : ℤ)) := by
  obtain ⟨y, hy, hd⟩ := Format.exists_close hw (hx.trans hw.le_max)
  exact (M.rnd_near x (hx.trans hw.le_max) y hy).trans (hd.trans
    (mul_le_mul_of_nonneg_left (max_le_max_left _ hw.tiny_le) f.u_pos.le))

theorem rnd_rel (hw : f.Wide) {x : ℝ} (hx : |x| ≤ 2 ^ (127 : ℤ)) (h0 : 2 ^ (-126 : ℤ) ≤ |x|) :
    |M.rnd x - x| ≤ f.u * |x| := by
  have := M.rnd_err hw hx
  rwa [max_eq_left h0] at this

theorem rnd_of_repr {x : ℝ} (hx : |x| ≤ f.max) (h : f.Repr x) : M.rnd x = x := by
  have := M.rnd_near x hx x h
  rw [sub_self, abs_zero] at this
  linarith [abs_eq_zero.1 (le_antisymm this (abs_nonneg _))]

theorem rnd_int (hw : f.Wide) (n : ℤ) (hn : |n| < 2 ^ 24) : M.rnd n = n := by
  refine M.rnd_of_repr ?_ ?_
  · refine le_trans ?_ hw.le_max
    have : ((|n| : ℤ) : ℝ) ≤ ((2 ^ 24 : ℤ) : ℝ) := Int.cast_le.2 hn.le
    push_cast at this
    exact this.trans (by norm_num)
  · have h1 : (2 : ℤ) ^ 24 ≤ 2 ^ f.prec := pow_le_pow_right₀ (by norm_num) hw.prec
    exact ⟨n, 0, by omega, by have := hw.small; have := hw.prec; omega,
      by have := hw.large; omega, by simp⟩

theorem rnd_nat (hw : f.Wide) (n : ℕ) (hn : n < 2 ^ 24) : M.rnd n = n := by
  have := M.rnd_int hw n (by rw [Nat.abs_cast]; exact_mod_cast hn)
  exact_mod_cast this

theorem rnd_zero (hw : f.Wide) : M.rnd 0 = 0 := by exact_mod_cast M.rnd_nat hw 0 (by norm_num)

end Machine

theorem Format.Acc.abs_err {f : Format} (hw : f.Wide) {a b : ℝ} (h : f.Acc a b)
    (hb : |b| ≤ 2 ^ (127 : ℤ)) : |a - b| ≤ 8 * f.u * Max.max |b| (2 ^ (-126 : ℤ)) :=
  (h.2.2 (hb.trans hw.le_max)).trans (mul_le_mul_of_nonneg_left (max_le_max_left _ hw.tiny_le)
    (by have := f.u_pos; positivity))

theorem Format.Acc.rel_err {f : Format} (hw : f.Wide) {a b : ℝ} (h : f.Acc a b)
    (hb : |b| ≤ 2 ^ (127 : ℤ)) (h0 : 2 ^ (-126 : ℤ) ≤ |b|) : |a - b| ≤ 8 * f.u * |b| := by
  have := h.abs_err hw hb
  rwa [max_eq_left h0] at this

/-! ## Absolute errors -/

/-- Rounding a value with absolute error `c u`. -/
theorem Machine.rnd_abs {f : Format} (M : Machine f) (hw : f.Wide) {a b c B B' : ℝ}
    (h : |a - b| ≤ c * f.u) (hb : |b| ≤ B) (hc : c ≤ 10 ^ 12) (hB : B ≤ 10 ^ 12)
    (hB' : B + c / 1000000 + 1 / 1000000 ≤ B') : |M.rnd a - b| ≤ (c + B') * f.u := by
  have hu := f.u_pos
  have hu' := hw.u_le'
  have ha : |a| ≤ B + c * f.u := by
    calc |a| = |(a - b) + b| := by ring_nf
      _ ≤ |a - b| + |b| := abs_add_le _ _
      _ ≤ _ := by linarith
  have hc0 : 0 ≤ c := by
    have := (abs_nonneg _).trans h
    exact nonneg_of_mul_nonneg_left this hu
  have hcu : c * f.u ≤ c / 1000000 := by
    rw [div_eq_mul_one_div]
    exact mul_le_mul_of_nonneg_left (hu'.trans (by norm_num)) hc0
  have hB0 : 0 ≤ B := (abs_nonneg _).trans hb
  have := M.rnd_err hw (x := a) (ha.trans (by
    have : (10 : ℝ) ^ 13 ≤ 2 ^ (127 : ℤ) := by norm_num
    refine le_trans ?_ this
    have : c / 1000000 ≤ 10 ^ 12 / 1000000 := by gcongr
    norm_num at *; linarith))
  have hm : Max.max |a| ((2 : ℝ) ^ (-126 : ℤ)) ≤ B' := by
    refine max_le (by linarith) ?_
    have h1 : (2 : ℝ) ^ (-126 : ℤ) ≤ 1 / 1000000 := by norm_num
    have : 0 ≤ c / 1000000 := by positivity
    exact h1.trans (by linarith)
  calc |M.rnd a - b| = |(M.rnd a - a) + (a - b)| := by ring_nf
    _ ≤ |M.rnd a - a| + |a - b| := abs_add_le _ _
    _ ≤ f.u * B' + c * f.u := add_le_add (this.trans (mul_le_mul_of_nonneg_left hm hu.le)) h
    _ = _ := by ring

/-- The same for a library function. -/
theorem Format.Acc.abs_add {f : Format} (hw : f.Wide) {z a b c B B' : ℝ} (hz : f.Acc z a)
    (h : |a - b| ≤ c * f.u) (hb : |b| ≤ B) (hc : c ≤ 10 ^ 12) (hB : B ≤ 10 ^ 12)
    (hB' : 8 * (B + c / 1000000 + 1 / 1000000) ≤ B') : |z - b| ≤ (c + B') * f.u := by
  have hu := f.u_pos
  have hu' := hw.u_le'
  have ha : |a| ≤ B + c * f.u := by
    calc |a| = |(a - b) + b| := by ring_nf
      _ ≤ |a - b| + |b| := abs_add_le _ _
      _ ≤ _ := by linarith
  have hc0 : 0 ≤ c := by
    have := (abs_nonneg _).trans h
    exact nonneg_of_mul_nonneg_left this hu
  have hcu : c * f.u ≤ c / 1000000 := by
    rw [div_eq_mul_one_div]
    exact mul_le_mul_of_nonneg_left (hu'.trans (by norm_num)) hc0
  have hB0 : 0 ≤ B := (abs_nonneg _).trans hb
  have := hz.abs_err hw (ha.trans (by
    have : (10 : ℝ) ^ 13 ≤ 2 ^ (127 : ℤ) := by norm_num
    refine le_trans ?_ this
    have : c / 1000000 ≤ 10 ^ 12 / 1000000 := by gcongr
    norm_num at *; linarith))
  have hm : 8 * Max.max |a| ((2 : ℝ) ^ (-126 : ℤ)) ≤ B' := by
    have : Max.max |a| ((2 : ℝ) ^ (-126 : ℤ)) ≤ B + c / 1000000 + 1 / 1000000 := by
      refine max_le (by linarith) ?_
      have h1 : (2 : ℝ) ^ (-126 : ℤ) ≤ 1 / 1000000 := by norm_num
      have : 0 ≤ c / 1000000 := by positivity
      exact h1.trans (by linarith)
    exact le_trans (mul_le_mul_of_nonneg_left this (by norm_num)) hB'
  calc |z - b| = |(z - a) + (a - b)| := by ring_nf
    _ ≤ |z - a| + |a - b| := abs_add_le _ _
    _ ≤ f.u * B' + c * f.u := by
        refine add_le_add (this.trans ?_) h
        nlinarith
    _ = _ := by ring

/-! ## Relative errors -/

/-- `a` is `b` up to a factor `exp (±n u)`, and `b` is between `2 ^ -L` and `2 ^ L`. -/
structure Ap (u n : ℝ) (L : ℕ) (a b : ℝ) : Prop where
  lo : b * exp (-(n * u)) ≤ a
  hi : a ≤ b * exp (n * u)
  mlo : (2 : ℝ) ^ (-L : ℤ) ≤ b
  mhi : b ≤ (2 : ℝ) ^ (L : ℤ)

namespace Ap
variable {u n m : ℝ} {L K : ℕ} {a b c d : ℝ}

theorem pos (h : Ap u n L a b) : 0 < b := lt_of_lt_of_le (by positivity) h.mlo

theorem pos' (h : Ap u n L a b) : 0 < a := lt_of_lt_of_le (mul_pos h.pos (exp_pos _)) h.lo

theorem mono (h : Ap u n L a b) (hu : 0 ≤ u) (hn : n ≤ m) : Ap u m L a b :=
  ⟨le_trans (mul_le_mul_of_nonneg_left (exp_le_exp.2 (by nlinarith)) h.pos.le) h.lo,
   h.hi.trans (mul_le_mul_of_nonneg_left (exp_le_exp.2 (by nlinarith)) h.pos.le), h.mlo, h.mhi⟩

theorem range (h : Ap u n L a b) {K : ℕ} (h1 : (2 : ℝ) ^ (-K : ℤ) ≤ b) (h2 : b ≤ (2 : ℝ) ^ (K : ℤ)) :
    Ap u n K a b := ⟨h.lo, h.hi, h1, h2⟩

theorem exact (h1 : (2 : ℝ) ^ (-L : ℤ) ≤ b) (h2 : b ≤ (2 : ℝ) ^ (L : ℤ)) : Ap u 0 L b b :=
  ⟨by simp, by simp, h1, h2⟩

/-- In logarithms. -/
theorem log_err (h : Ap u n L a b) : |log a - log b| ≤ n * u := by
  have h1 := log_le_log (mul_pos h.pos (exp_pos _)) h.lo
  have h2 := log_le_log h.pos' h.hi
  rw [log_mul h.pos.ne' (exp_pos _).ne', log_exp] at h1 h2
  exact abs_le.2 ⟨by linarith, by linarith⟩

theorem of_log (ha : 0 < a) (hb : 0 < b) (h : |log a - log b| ≤ n * u)
    (h1 : (2 : ℝ) ^ (-L : ℤ) ≤ b) (h2 : b ≤ (2 : ℝ) ^ (L : ℤ)) : Ap u n L a b := by
  obtain ⟨l, r⟩ := abs_le.1 h
  refine ⟨?_, ?_, h1, h2⟩
  · rw [← log_le_log_iff (mul_pos hb (exp_pos _)) ha, log_mul hb.ne' (exp_pos _).ne', log_exp]
    linarith
  · rw [← log_le_log_iff ha (mul_pos hb (exp_pos _)), log_mul hb.ne' (exp_pos _).ne', log_exp]
    linarith

/-- From a relative error: `c u` relative becomes `1.01 c` units. -/
theorem of_rel {k : ℝ} (h : |a - b| ≤ k * u * b) (hb : 0 < b) (hk : 0 ≤ k) (hu : 0 < u)
    (hs : k * u ≤ 1 / 200) (h1 : (2 : ℝ) ^ (-L : ℤ) ≤ b) (h2 : b ≤ (2 : ℝ) ^ (L : ℤ)) :
    Ap u (1.01 * k) L a b := by
  obtain ⟨l, r⟩ := abs_le.1 h
  set t := k * u with ht
  have ht0 : 0 ≤ t := by positivity
  have e : 1.01 * k * u = 1.01 * t := by rw [ht]; ring
  refine ⟨?_, ?_, h1, h2⟩
  · rw [e]
    have : exp (-(1.01 * t)) ≤ 1 - t := by
      have h3 : 1 + 1.01 * t ≤ exp (1.01 * t) := by linarith [add_one_le_exp (1.01 * t)]
      rw [exp_neg, inv_le_comm₀ (exp_pos _) (by linarith)]
      refine le_trans ?_ h3
      rw [inv_le_iff_one_le_mul₀ (by linarith)]
      nlinarith
    nlinarith
  · rw [e]
    have : 1 + t ≤ exp (1.01 * t) := by linarith [add_one_le_exp (1.01 * t)]
    nlinarith

/-- To a relative error. -/
theorem rel (h : Ap u n L a b) (hn : 0 ≤ n) (hu : 0 ≤ u) (hs : n * u ≤ 1 / 200) :
    |a - b| ≤ 1.01 * n * u * b := by
  have hb := h.pos
  set t := n * u with ht
  have ht0 : 0 ≤ t := by positivity
  have e : 1.01 * n * u = 1.01 * t := by rw [ht]; ring
  have e1 : exp t ≤ 1 + 1.01 * t := by
    have h3 : 1 - t ≤ exp (-t) := by linarith [add_one_le_exp (-t)]
    have : exp t = (exp (-t))⁻¹ := by rw [exp_neg, inv_inv]
    rw [this, inv_le_comm₀ (exp_pos _) (by linarith)]
    refine le_trans ?_ h3
    rw [inv_le_iff_one_le_mul₀ (by linarith)]
    nlinarith
  have e2 : 1 - t ≤ exp (-t) := by linarith [add_one_le_exp (-t)]
  have h1 := h.lo
  have h2 := h.hi
  rw [← ht] at h1 h2
  rw [e, abs_le]
  constructor <;> nlinarith

/-- `a` itself is within a factor two of the range. -/
theorem size (h : Ap u n L a b) (hs : n * u ≤ 1 / 2) :
    (2 : ℝ) ^ (-(L + 1) : ℤ) ≤ a ∧ a ≤ (2 : ℝ) ^ (L + 1 : ℤ) := by
  have hb := h.pos
  have e0 : exp (1 / 2) ≤ 2 := by
    have h3 : 1 - 1 / 2 ≤ exp (-(1 / 2) : ℝ) := by linarith [add_one_le_exp (-(1 / 2) : ℝ)]
    have : exp (1 / 2 : ℝ) = (exp (-(1 / 2)))⁻¹ := by rw [exp_neg, inv_inv]
    rw [this, inv_le_comm₀ (exp_pos _) (by norm_num)]
    linarith
  have e1 : exp (n * u) ≤ 2 := (exp_le_exp.2 hs).trans e0
  have e2 : 1 / 2 ≤ exp (-(n * u)) := by
    rw [exp_neg, ← one_div]
    exact one_div_le_one_div_of_le (exp_pos _) e1
  constructor
  · rw [show -((L : ℤ) + 1) = -L - 1 by ring, zpow_sub_one₀ (by norm_num)]
    have h1 := h.lo
    have h2 := h.mlo
    calc (2 : ℝ) ^ (-L : ℤ) * 2⁻¹ ≤ b * exp (-(n * u)) :=
          mul_le_mul h2 (by rw [← one_div]; exact e2) (by norm_num) hb.le
      _ ≤ a := h1
  · rw [zpow_add_one₀ (by norm_num)]
    exact h.hi.trans (mul_le_mul h.mhi e1 (exp_pos _).le (by positivity))

/-! ### Operations without rounding -/

theorem mul (h : Ap u n L a b) (h' : Ap u m K c d) : Ap u (n + m) (L + K) (a * c) (b * d) := by
  have p1 := h.pos; have p2 := h.pos'; have p3 := h'.pos; have p4 := h'.pos'
  refine ⟨?_, ?_, ?_, ?_⟩
  · calc b * d * exp (-((n + m) * u)) = (b * exp (-(n * u))) * (d * exp (-(m * u))) := by
          rw [show -((n + m) * u) = -(n * u) + -(m * u) by ring, exp_add]; ring
      _ ≤ a * c := mul_le_mul h.lo h'.lo (by positivity) p2.le
  · calc a * c ≤ (b * exp (n * u)) * (d * exp (m * u)) :=
          mul_le_mul h.hi h'.hi p4.le (by positivity)
      _ = _ := by rw [show (n + m) * u = n * u + m * u by ring, exp_add]; ring
  · rw [show (-((L + K : ℕ) : ℤ)) = -L + -K by push_cast; ring, zpow_add₀ (by norm_num)]
    exact mul_le_mul h.mlo h'.mlo (by positivity) p1.le
  · rw [show ((L + K : ℕ) : ℤ) = L + K by push_cast; ring, zpow_add₀ (by norm_num)]
    exact mul_le_mul h.mhi h'.mhi p3.le (by positivity)

theorem inv (h : Ap u n L a b) : Ap u n L a⁻¹ b⁻¹ := by
  have p1 := h.pos; have p2 := h.pos'
  refine of_log (inv_pos.2 p2) (inv_pos.2 p1) ?_ ?_ ?_
  · rw [log_inv, log_inv, show -log a - -log b = -(log a - log b) by ring, abs_neg]
    exact h.log_err
  · rw [zpow_neg]; exact inv_anti₀ p1 h.mhi
  · have := inv_anti₀ (by positivity) h.mlo
    rwa [zpow_neg, inv_inv] at this

theorem div (h : Ap u n L a b) (h' : Ap u m K c d) : Ap u (n + m) (L + K) (a / c) (b / d) := by
  rw [div_eq_mul_inv, div_eq_mul_inv]; exact h.mul h'.inv

theorem add (h : Ap u n L a b) (h' : Ap u n L c d) : Ap u n (L + 1) (a + c) (b + d) := by
  have p1 := h.pos; have p2 := h'.pos
  refine ⟨?_, ?_, ?_, ?_⟩
  · rw [add_mul]; exact add_le_add h.lo h'.lo
  · rw [add_mul]; exact add_le_add h.hi h'.hi
  · refine le_trans ?_ (le_trans h.mlo (by linarith))
    exact zpow_le_zpow_right₀ (by norm_num) (by push_cast; omega)
  · rw [show ((L + 1 : ℕ) : ℤ) = L + 1 by push_cast; ring, zpow_add_one₀ (by norm_num)]
    linarith [h.mhi, h'.mhi]

theorem max (h : Ap u n L a b) (h' : Ap u n L c d) : Ap u n L (Max.max a c) (Max.max b d) := by
  refine ⟨?_, ?_, h.mlo.trans (le_max_left _ _), max_le h.mhi h'.mhi⟩
  · rcases le_total b d with hh | hh
    · rw [max_eq_right hh]; exact h'.lo.trans (le_max_right _ _)
    · rw [max_eq_left hh]; exact h.lo.trans (le_max_left _ _)
  · refine max_le (h.hi.trans ?_) (h'.hi.trans ?_)
    · exact mul_le_mul_of_nonneg_right (le_max_left _ _) (exp_pos _).le
    · exact mul_le_mul_of_nonneg_right (le_max_right _ _) (exp_pos _).le

theorem sqrt (h : Ap u n L a b) : Ap u (n / 2) L (√a) (√b) := by
  have p1 := h.pos; have p2 := h.pos'
  refine of_log (sqrt_pos.2 p2) (sqrt_pos.2 p1) ?_ ?_ ?_
  · rw [log_sqrt p2.le, log_sqrt p1.le, ← sub_div, abs_div, abs_two]
    have := h.log_err
    rw [div_mul_eq_mul_div]
    exact div_le_div_of_nonneg_right this (by norm_num)
  · refine le_sqrt_of_sq_le (le_trans ?_ h.mlo)
    rw [← zpow_natCast, ← zpow_mul]
    exact zpow_le_zpow_right₀ (by norm_num) (by push_cast; omega)
  · refine sqrt_le_iff.2 ⟨by positivity, h.mhi.trans ?_⟩
    rw [← zpow_natCast, ← zpow_mul]
    exact zpow_le_zpow_right₀ (by norm_num) (by push_cast; omega)

theorem log_le (h : Ap u n L a b) : |log b| ≤ L * log 2 := by
  have p1 := h.pos
  have h1 := log_le_log (by positivity) h.mlo
  have h2 := log_le_log p1 h.mhi
  rw [log_zpow] at h1 h2
  push_cast at h1 h2
  exact abs_le.2 ⟨by linarith, h2⟩

theorem npow (h : Ap u n L a b) (k : ℕ) : Ap u (k * n) (k * L) (a ^ k) (b ^ k) := by
  have p1 := h.pos; have p2 := h.pos'
  refine of_log (pow_pos p2 _) (pow_pos p1 _) ?_ ?_ ?_
  · rw [log_pow, log_pow, ← mul_sub, abs_mul, Nat.abs_cast, mul_assoc]
    exact mul_le_mul_of_nonneg_left h.log_err (by positivity)
  · have := pow_le_pow_left₀ (by positivity) h.mlo k
    refine le_trans (le_of_eq ?_) this
    rw [← zpow_natCast ((2 : ℝ) ^ (-L : ℤ)), ← zpow_mul]
    congr 1; push_cast; ring
  · have := pow_le_pow_left₀ p1.le h.mhi k
    refine le_trans this (le_of_eq ?_)
    rw [← zpow_natCast ((2 : ℝ) ^ (L : ℤ)), ← zpow_mul]
    congr 1; push_cast; ring

/-- A power with an inexact exponent; `l` bounds the logarithm of the base, `q` the exponent and
`k` the absolute error of the exponent in units of `u`. -/
theorem rpow (h : Ap u n L a b) {x y l q k : ℝ} (hq : |y| ≤ q) (hk : |x - y| ≤ k * u)
    (hl : |log b| ≤ l) (hu : 0 ≤ u) (hk0 : 0 ≤ k) (hku : k * u ≤ 1 / 1000)
    (h1 : (2 : ℝ) ^ (-K : ℤ) ≤ b ^ y) (h2 : b ^ y ≤ (2 : ℝ) ^ (K : ℤ)) :
    Ap u ((q + 1 / 1000) * n + k * l) K (a ^ x) (b ^ y) := by
  have p1 := h.pos; have p2 := h.pos'
  refine of_log (rpow_pos_of_pos p2 _) (rpow_pos_of_pos p1 _) ?_ h1 h2
  rw [log_rpow p2, log_rpow p1,
    show x * log a - y * log b = x * (log a - log b) + (x - y) * log b by ring]
  have hx : |x| ≤ q + 1 / 1000 := by
    calc |x| = |(x - y) + y| := by ring_nf
      _ ≤ |x - y| + |y| := abs_add_le _ _
      _ ≤ _ := by linarith
  calc _ ≤ |x * (log a - log b)| + |(x - y) * log b| := abs_add_le _ _
    _ = |x| * |log a - log b| + |x - y| * |log b| := by rw [abs_mul, abs_mul]
    _ ≤ (q + 1 / 1000) * (n * u) + k * u * l := by
        refine add_le_add (mul_le_mul hx h.log_err (abs_nonneg _) (le_trans (abs_nonneg _) hx))
          (mul_le_mul hk hl (abs_nonneg _) (by positivity))
    _ = _ := by ring

/-- The exponential of an argument with absolute error `k u`. -/
theorem exp {x y k : ℝ} (h : |x - y| ≤ k * u) (h1 : (2 : ℝ) ^ (-K : ℤ) ≤ Real.exp y)
    (h2 : Real.exp y ≤ (2 : ℝ) ^ (K : ℤ)) : Ap u k K (Real.exp x) (Real.exp y) :=
  of_log (exp_pos _) (exp_pos _) (by rw [log_exp, log_exp]; exact h) h1 h2

/-! ### Rounding -/

variable {f : Format} (M : Machine f)

/-- One more relative error of `k` roundoffs. -/
theorem step (hw : f.Wide) (h : Ap f.u n L a b) {z k : ℝ} (hz : |z - a| ≤ k * f.u * a)
    (hk : 0 ≤ k) (hk' : k ≤ 10) : Ap f.u (n + 1.01 * k) L z b := by
  have hu := f.u_pos
  have p2 := h.pos'
  have hk2 : k * f.u ≤ 1 / 1000 := by have := hw.u_le'; nlinarith
  set t := k * f.u with ht
  have ht0 : 0 ≤ t := by positivity
  obtain ⟨l, r⟩ := abs_le.1 hz
  have e1 : Real.exp (-(1.01 * t)) ≤ 1 - t := by
    have h3 : 1 + 1.01 * t ≤ Real.exp (1.01 * t) := by linarith [add_one_le_exp (1.01 * t)]
    rw [exp_neg, inv_le_comm₀ (exp_pos _) (by linarith)]
    refine le_trans ?_ h3
    rw [inv_le_iff_one_le_mul₀ (by linarith)]
    nlinarith
  have e2 : 1 + t ≤ Real.exp (1.01 * t) := by linarith [add_one_le_exp (1.01 * t)]
  refine ⟨?_, ?_, h.mlo, h.mhi⟩
  · rw [show -((n + 1.01 * k) * f.u) = -(n * f.u) + -(1.01 * t) by rw [ht]; ring, exp_add,
      ← mul_assoc]
    calc _ ≤ a * (1 - t) := mul_le_mul h.lo e1 (exp_pos _).le p2.le
      _ ≤ z := by nlinarith
  · rw [show (n + 1.01 * k) * f.u = n * f.u + 1.01 * t by rw [ht]; ring, exp_add, ← mul_assoc]
    calc z ≤ a * (1 + t) := by nlinarith
      _ ≤ _ := mul_le_mul h.hi e2 (by linarith) (by have := h.pos; positivity)

theorem small (h : Ap f.u n L a b) (hw : f.Wide) (hL : L ≤ 125) (hn : n ≤ 1000000) :
    (2 : ℝ) ^ (-126 : ℤ) ≤ |a| ∧ |a| ≤ 2 ^ (127 : ℤ) := by
  have hu := f.u_pos
  have := hw.u_le'
  obtain ⟨s1, s2⟩ := h.size (by
    calc n * f.u ≤ 1000000 * f.u := mul_le_mul_of_nonneg_right hn hu.le
      _ ≤ 1 / 2 := by linarith)
  rw [abs_of_pos h.pos']
  exact ⟨le_trans (zpow_le_zpow_right₀ (by norm_num) (by omega)) s1,
    s2.trans (zpow_le_zpow_right₀ (by norm_num) (by omega))⟩

theorem rnd (h : Ap f.u n L a b) (hw : f.Wide) (hL : L ≤ 125) (hn : n ≤ 1000000) :
    Ap f.u (n + 1.01) L (M.rnd a) b := by
  obtain ⟨s1, s2⟩ := h.small hw hL hn
  have := M.rnd_rel hw s2 s1
  rw [abs_of_pos h.pos'] at this
  have := h.step hw (k := 1) (by rwa [one_mul]) (by norm_num) (by norm_num)
  rwa [mul_one] at this

/-- A library function. -/
theorem lib (h : Ap f.u n L a b) {z : ℝ} (hz : f.Acc z a) (hw : f.Wide) (hL : L ≤ 125)
    (hn : n ≤ 1000000) : Ap f.u (n + 8.08) L z b := by
  obtain ⟨s1, s2⟩ := h.small hw hL hn
  have := hz.rel_err hw s2 s1
  rw [abs_of_pos h.pos'] at this
  have := h.step hw (k := 8) this (by norm_num) (by norm_num)
  norm_num at this ⊢
  exact this

/-- A literal. -/
theorem lit (hw : f.Wide) (h1 : (2 : ℝ) ^ (-L : ℤ) ≤ b) (h2 : b ≤ (2 : ℝ) ^ (L : ℤ))
    (hL : L ≤ 125) : Ap f.u 1.01 L (M.rnd b) b := by
  have := (Ap.exact (u := f.u) h1 h2).rnd M hw hL (by norm_num)
  rwa [zero_add] at this

/-- From an absolute error. -/
theorem of_abs (hw : f.Wide) {e k : ℝ} (h : |a - b| ≤ e * f.u) (he : e ≤ k * b) (hb : 0 < b)
    (hk : 0 ≤ k) (hk' : k ≤ 10000) (h1 : (2 : ℝ) ^ (-L : ℤ) ≤ b) (h2 : b ≤ (2 : ℝ) ^ (L : ℤ)) :
    Ap f.u (1.01 * k) L a b := by
  have hu := f.u_pos
  have := hw.u_le'
  refine of_rel (h.trans ?_) hb hk hu (by nlinarith) h1 h2
  nlinarith

end Ap

end Verif
