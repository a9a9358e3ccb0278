import Verif.Lemmas.Filters
import Mathlib.Algebra.Polynomial.HasseDeriv

/-!
# C67, C68, C94: Savitzky-Golay smoothing and differentiation
-/

namespace Verif.Props
open Verif Verif.Filters Polynomial

theorem savgolInit_ok {w o d : ℤ} {i : Bool} {f : SavGol} (hf : savgolInit w o d i = .ok f) :
    f = ⟨i, w.natAbs, o.natAbs, d⟩ ∧ w.natAbs % 2 = 1 ∧ o.natAbs + 2 ≤ w.natAbs := by
  unfold savgolInit at hf
  simp only at hf
  split_ifs at hf with h1 h2
  exact ⟨(Except.ok.inj hf).symm, by omega, by omega⟩

theorem kernel_ok {half order : ℕ} {d : ℕ} (hd : d ≤ order) :
    kernel half order d = .ok (List.ofFn fun i => pinv (vander half order) ⟨d, by omega⟩ i) := by
  unfold kernel pyIndex
  rw [if_pos ⟨by omega, by omega⟩]
  simp only [Int.toNat_natCast]
  have : Fin.ofNat (order + 1) d = ⟨d, by omega⟩ := by
    apply Fin.ext; simp only [Fin.ofNat]; exact Nat.mod_eq_of_lt (by omega)
  rw [this]

theorem savgol_eq {f : SavGol} (hi : f.interpolate = false) {X Y : List ℝ} {d : ℕ}
    (hd : f.deriv = d) (hdo : d ≤ f.order) (hl : X.length = Y.length) (hne : X ≠ [])
    (hx : X.Pairwise (· ≤ ·)) {h : ℕ} (hh : (f.window - 1) / 2 = h) :
    savgol f X Y = .ok (X, convolveValid (List.ofFn fun i =>
      pinv (vander h f.order) ⟨d, by omega⟩ i) (padded h Y)) := by
  subst hh
  have hY : Y ≠ [] := by rintro rfl; exact hne (List.length_eq_zero_iff.1 hl)
  unfold savgol
  rw [hi, hd, sortxy_sorted hl hne hx]
  simp only [bind, Except.bind, pure, Except.pure, Bool.false_eq_true, if_false]
  rw [kernel_ok hdo]
  simp only [hY, if_false]

/-- **C67, C68, general form.** Let `h` be the half window. On time-sorted data of more than `h`
samples the filter returns one value per sample. If the samples are the values of a polynomial (in
the sample number) of degree at most the order, then `h` samples away from the ends the value is
the derivative of order `d` of the polynomial, times `(-1)^d / d!`. -/
theorem C68_taylor_coefficient {w o : ℤ} {d : ℕ} {f : SavGol}
    (hf : savgolInit w o d false = .ok f) (hd : d ≤ o.natAbs) (X Y : List ℝ)
    (hl : X.length = Y.length) (hx : X.Pairwise (· ≤ ·)) (h : ℕ) (hw : w.natAbs = 2 * h + 1)
    (hn : h < X.length) :
    ∃ Y2, savgol f X Y = .ok (X, Y2) ∧ Y2.length = X.length ∧
      ∀ p : ℝ[X], p.natDegree ≤ o.natAbs → (∀ i, i < X.length → Y.getD i 0 = p.eval (i : ℝ)) →
        ∀ i, h ≤ i → i + h < X.length →
          Y2.getD i 0 = (-1) ^ d * ((derivative^[d] p).eval (i : ℝ) / d.factorial) := by
  obtain ⟨rfl, h1, h2⟩ := savgolInit_ok hf
  have hhalf : (w.natAbs - 1) / 2 = h := by omega
  have hne : X ≠ [] := by rintro rfl; simp at hn
  refine ⟨_, savgol_eq rfl rfl hd hl hne hx hhalf, ?_, ?_⟩
  · rw [(convolve_padded _ (by omega)).1, hl]
  · intro p hp hY i hi1 hi2
    rw [(convolve_padded _ (by omega)).2 i (by omega)]
    have hsum := row_poly (half := h) (order := o.natAbs) (by omega) p hp (i : ℝ) ⟨d, by omega⟩
    have htay : (taylor (i : ℝ) p).coeff d = (derivative^[d] p).eval (i : ℝ) / d.factorial := by
      rw [taylor_coeff, eq_div_iff (by exact_mod_cast d.factorial_ne_zero),
        ← factorial_smul_hasseDeriv]
      simp [mul_comm]
    rw [← htay, ← hsum]
    refine Finset.sum_congr rfl fun k _ => ?_
    congr 1
    have hk := k.2
    rw [padded_mid (by omega) (by omega) (by omega), hY _ (by omega)]
    congr 1
    rw [Nat.cast_sub (by omega), Nat.cast_sub (by omega)]
    push_cast
    ring

/-- **C67.** Smoothing (`deriv = 0`) keeps the number of samples and reproduces polynomials of degree
at most the order away from the ends. -/
theorem C67_reproduces_polynomials {w o : ℤ} {f : SavGol}
    (hf : savgolInit w o 0 false = .ok f) (X Y : List ℝ)
    (hl : X.length = Y.length) (hx : X.Pairwise (· ≤ ·)) (h : ℕ) (hw : w.natAbs = 2 * h + 1)
    (hn : h < X.length) :
    ∃ Y2, savgol f X Y = .ok (X, Y2) ∧ Y2.length = X.length ∧
      ∀ p : ℝ[X], p.natDegree ≤ o.natAbs → (∀ i, i < X.length → Y.getD i 0 = p.eval (i : ℝ)) →
        ∀ i, h ≤ i → i + h < X.length → Y2.getD i 0 = Y.getD i 0 := by
  obtain ⟨Y2, h1, h2, h3⟩ := C68_taylor_coefficient (d := 0) hf (Nat.zero_le _) X Y hl hx h hw hn
  refine ⟨Y2, h1, h2, fun p hp hY i hi1 hi2 => ?_⟩
  rw [h3 p hp hY i hi1 hi2, hY i (by omega)]
  simp

/-- **C68.** With `deriv = 1` the filter returns minus the derivative. -/
theorem C68_derivative_negated {w o : ℤ} {f : SavGol}
    (hf : savgolInit w o 1 false = .ok f) (ho : 1 ≤ o.natAbs) (X Y : List ℝ)
    (hl : X.length = Y.length) (hx : X.Pairwise (· ≤ ·)) (h : ℕ) (hw : w.natAbs = 2 * h + 1)
    (hn : h < X.length) :
    ∃ Y2, savgol f X Y = .ok (X, Y2) ∧ Y2.length = X.length ∧
      ∀ p : ℝ[X], p.natDegree ≤ o.natAbs → (∀ i, i < X.length → Y.getD i 0 = p.eval (i : ℝ)) →
        ∀ i, h ≤ i → i + h < X.length → Y2.getD i 0 = - p.derivative.eval (i : ℝ) := by
  obtain ⟨Y2, h1, h2, h3⟩ := C68_taylor_coefficient (d := 1) hf ho X Y hl hx h hw hn
  refine ⟨Y2, h1, h2, fun p hp hY i hi1 hi2 => ?_⟩
  rw [h3 p hp hY i hi1 hi2]
  simp

/-- The signal 0, 3, 6, .., rising by 3 per sample: the default window reports a slope of -3. -/
example : ∃ f Y2, savgolInit 11 2 1 false = .ok f ∧
    savgol f ((List.range 20).map fun k : ℕ => (k : ℝ)) ((List.range 20).map fun k : ℕ => 3 * (k : ℝ)) =
      .ok ((List.range 20).map fun k : ℕ => (k : ℝ), Y2) ∧ Y2.getD 7 0 = -3 := by
  obtain ⟨Y2, h1, -, h3⟩ := C68_derivative_negated (w := 11) (o := 2) (f := ⟨false, 11, 2, 1⟩) rfl
    (by decide) ((List.range 20).map fun k : ℕ => (k : ℝ))
    ((List.range 20).map fun k : ℕ => 3 * (k : ℝ)) (by simp)
    (List.pairwise_map.2 (List.pairwise_le_range.imp fun h => by exact_mod_cast h)) 5 rfl (by simp)
  refine ⟨_, Y2, rfl, h1, ?_⟩
  rw [h3 (Polynomial.C 3 * Polynomial.X) ?_ ?_ 7 (by norm_num) (by simp)]
  · simp
  · have := natDegree_C_mul_X_pow_le (3:ℝ) 1
    rw [pow_one] at this
    exact this.trans (by decide)
  · intro i hi
    have hi' : i < 20 := by simpa using hi
    rw [List.getD_eq_getElem?_getD, List.getElem?_map, List.getElem?_range hi']
    simp

/-- **C67, constructor.** Only odd windows at least two longer than the order are accepted; signs of
both numbers are ignored. -/
theorem C67_constructor (w o d : ℤ) (i : Bool) :
    ((∃ f, savgolInit w o d i = .ok f) ↔ ¬ 2 ∣ w ∧ |o| + 2 ≤ |w|) ∧
    savgolInit (-w) o d i = savgolInit w o d i ∧ savgolInit w (-o) d i = savgolInit w o d i := by
  refine ⟨?_, by simp [savgolInit], by simp [savgolInit]⟩
  unfold savgolInit
  simp only [Int.abs_eq_natAbs]
  constructor
  · rintro ⟨f, hf⟩
    split_ifs at hf with h1 h2
    omega
  · rintro ⟨h1, h2⟩
    rw [if_neg (by omega), if_neg (by omega)]
    exact ⟨_, rfl⟩

/-- **C67, order of the derivative.** `deriv` is a Python index into the `order + 1` rows of the
pseudo-inverse: `-1 - k` selects the same row as `order - k`, and a number outside
`-order - 1 .. order` makes every call of `filter` raise. -/
theorem C67_negative_deriv (i : Bool) (w o : ℕ) (X Y : List ℝ) :
    (∀ k ≤ o, savgol ⟨i, w, o, -1 - k⟩ X Y = savgol ⟨i, w, o, (o : ℤ) - k⟩ X Y) ∧
    (∀ d : ℤ, (o : ℤ) < d ∨ d < -(o : ℤ) - 1 → ∀ r, savgol ⟨i, w, o, d⟩ X Y ≠ .ok r) := by
  constructor
  · intro k hk
    have e : kernel ((w - 1) / 2) o (-1 - (k : ℤ)) = kernel ((w - 1) / 2) o ((o : ℤ) - k) := by
      unfold kernel pyIndex
      rw [if_neg (show ¬ (0 ≤ -1 - (k : ℤ) ∧ -1 - (k : ℤ) < ((o + 1 : ℕ) : ℤ)) by omega),
        if_pos (show -1 - (k : ℤ) < 0 ∧ 0 ≤ -1 - (k : ℤ) + ((o + 1 : ℕ) : ℤ) by omega),
        if_pos (show 0 ≤ (o : ℤ) - k ∧ (o : ℤ) - k < ((o + 1 : ℕ) : ℤ) by omega)]
      have : (-1 - (k : ℤ) + ((o + 1 : ℕ) : ℤ)).toNat = ((o : ℤ) - k).toNat := by omega
      rw [this]
    unfold savgol
    simp only [e]
  · intro d hd r h
    have e : kernel ((w - 1) / 2) o d = .error .indexError := by
      unfold kernel pyIndex
      rw [if_neg (show ¬ (0 ≤ d ∧ d < ((o + 1 : ℕ) : ℤ)) by omega),
        if_neg (show ¬ (d < 0 ∧ 0 ≤ d + ((o + 1 : ℕ) : ℤ)) by omega)]
    unfold savgol at h
    simp only [e, bind, Except.bind, pure, Except.pure] at h
    repeat' split at h
    all_goals cases h

/-- **C67, short signals.** A signal that is not longer than the half window is returned with a
different number of values than time stamps, except when `2 n = h + 2`. -/
theorem C67_short_signals {w o : ℤ} {d : ℕ} {f : SavGol}
    (hf : savgolInit w o d false = .ok f) (hd : d ≤ o.natAbs) (X Y : List ℝ)
    (hl : X.length = Y.length) (hx : X.Pairwise (· ≤ ·)) (hne : X ≠ []) (h : ℕ)
    (hw : w.natAbs = 2 * h + 1) :
    ∃ Y2, savgol f X Y = .ok (X, Y2) ∧
      (Y2.length = X.length ↔ h < X.length ∨ 2 * X.length = h + 2) := by
  obtain ⟨rfl, h1, h2⟩ := savgolInit_ok hf
  have hhalf : (w.natAbs - 1) / 2 = h := by omega
  refine ⟨_, savgol_eq rfl rfl hd hl hne hx hhalf, ?_⟩
  rcases Nat.lt_or_ge h X.length with hc | hc
  · rw [(convolve_padded _ (by omega)).1]
    omega
  · have hY : Y ≠ [] := by rintro rfl; exact hne (List.length_eq_zero_iff.1 hl)
    have := List.length_pos_of_ne_nil hY
    rw [convolve_length, List.length_ofFn, padded_length' (by omega) hY]
    omega

/-! ## C94: the ends -/

theorem kernel_sum {half order : ℕ} (h : order < 2 * half + 1) (d : Fin (order + 1)) :
    ∑ i : Fin (2 * half + 1), pinv (vander half order) d i = if (d : ℕ) = 0 then 1 else 0 := by
  have := row_poly h (1 : ℝ[X]) (by simp) 0 d
  simp only [eval_one, mul_one] at this
  rw [this]
  have h1 : taylor (0 : ℝ) (1 : ℝ[X]) = 1 := by simp
  rw [h1, coeff_one]
  by_cases hd : (d : ℕ) = 0 <;> simp [hd]

theorem padded_affine {h : ℕ} {Y : List ℝ} (hn : h < Y.length) (a c : ℝ) (ha : 0 ≤ a) (q : ℕ)
    (hq : q < Y.length + 2 * h) :
    (padded h (Y.map fun y => a * y + c)).getD q 0 = a * (padded h Y).getD q 0 + c := by
  have hmap : ∀ j, j < Y.length → (Y.map fun y => a * y + c).getD j 0 = a * Y.getD j 0 + c := by
    intro j hj
    simp only [List.getD_eq_getElem?_getD, List.getElem?_map, List.getElem?_eq_getElem hj]
    simp
  have habs : ∀ x y : ℝ, |a * x + c - (a * y + c)| = a * |x - y| := by
    intro x y
    rw [show a * x + c - (a * y + c) = a * (x - y) by ring, abs_mul, abs_of_nonneg ha]
  have hlen : (Y.map fun y => a * y + c).length = Y.length := by simp
  rcases Nat.lt_or_ge q h with h1 | h1
  · rw [padded_first (by rw [hlen]; exact hn) h1, padded_first hn h1, hmap _ (by omega),
      hmap _ (by omega), habs]
    ring
  · rcases Nat.lt_or_ge q (h + Y.length) with h2 | h2
    · rw [padded_mid (by rw [hlen]; exact hn) h1 (by rw [hlen]; exact h2), padded_mid hn h1 h2,
        hmap _ (by omega)]
    · obtain ⟨r, rfl⟩ : ∃ r, q = h + Y.length + r := ⟨q - (h + Y.length), by omega⟩
      have e := padded_last (Y := Y.map fun y => a * y + c) (h := h) (r := r)
        (by rw [hlen]; exact hn) (by omega)
      rw [hlen] at e
      rw [e, padded_last hn (by omega), hmap _ (by omega), hmap _ (by omega), habs]
      ring

/-- **C94.** Smoothing commutes with a shift and a non-negative change of scale of the values, at
every sample including the ends. -/
theorem C94_affine_equivariance {w o : ℤ} {f : SavGol}
    (hf : savgolInit w o 0 false = .ok f) (X Y : List ℝ) (hl : X.length = Y.length)
    (hx : X.Pairwise (· ≤ ·)) (hn : w.natAbs < 2 * X.length) (a c : ℝ) (ha : 0 ≤ a) :
    ∃ Y2, savgol f X Y = .ok (X, Y2) ∧
      savgol f X (Y.map fun y => a * y + c) = .ok (X, Y2.map fun y => a * y + c) := by
  obtain ⟨rfl, h1, h2⟩ := savgolInit_ok hf
  have hne : X ≠ [] := by rintro rfl; simp at hn
  obtain ⟨h, hw⟩ : ∃ h, w.natAbs = 2 * h + 1 := ⟨(w.natAbs - 1) / 2, by omega⟩
  have hhalf : (w.natAbs - 1) / 2 = h := by omega
  refine ⟨_, savgol_eq rfl (d := 0) rfl (Nat.zero_le _) hl hne hx hhalf, ?_⟩
  rw [savgol_eq rfl (d := 0) rfl (Nat.zero_le _) (by simpa using hl) hne hx hhalf]
  congr 2
  have hY : h < Y.length := by omega
  have hY' : h < (Y.map fun y => a * y + c).length := by rw [List.length_map]; exact hY
  have e1 := convolve_padded (half := h) (fun i => pinv (vander h o.natAbs) ⟨0, by omega⟩ i) hY
  have e2 := convolve_padded (half := h) (fun i => pinv (vander h o.natAbs) ⟨0, by omega⟩ i) hY'
  rw [List.length_map] at e2
  apply List.ext_getElem
  · rw [List.length_map, e1.1, e2.1]
  · intro j g1 g2
    have hj : j < Y.length := by rw [e2.1] at g1; exact g1
    have get : ∀ (l : List ℝ) (hl : j < l.length), l[j] = l.getD j 0 := by
      intro l hl; rw [List.getD_eq_getElem?_getD, List.getElem?_eq_getElem hl]; rfl
    rw [List.getElem_map, get _ g1, get _ (by rw [e1.1]; exact hj), e1.2 j hj, e2.2 j hj]
    have hsum := kernel_sum (half := h) (order := o.natAbs) (by omega) ⟨0, by omega⟩
    simp only [if_true] at hsum
    calc _ = ∑ i : Fin (2 * h + 1), (a * (pinv (vander h o.natAbs) ⟨0, by omega⟩ i *
              (padded h Y).getD (j + 2 * h - i) 0) + pinv (vander h o.natAbs) ⟨0, by omega⟩ i * c) := by
          refine Finset.sum_congr rfl fun i _ => ?_
          rw [padded_affine hY a c ha _ (by have := i.2; omega)]
          ring
      _ = _ := by
          rw [Finset.sum_add_distrib, ← Finset.mul_sum, ← Finset.sum_mul, hsum, one_mul]

/-- Normal equations: the fitted values and the data have the same moments. -/
theorem normal_equations {half order : ℕ} (h : order < 2 * half + 1) (y : Fin (2 * half + 1) → ℝ)
    (e : Fin (order + 1)) :
    ∑ g : Fin (order + 1), (∑ i : Fin (2 * half + 1), ((i : ℝ) - half) ^ (e + g : ℕ)) *
      (∑ i : Fin (2 * half + 1), pinv (vander half order) g i * y i) =
    ∑ i : Fin (2 * half + 1), ((i : ℝ) - half) ^ (e : ℕ) * y i := by
  have hm : (vander half order).transpose * vander half order * pinv (vander half order) =
      (vander half order).transpose := by
    unfold pinv
    rw [← Matrix.mul_assoc, Matrix.mul_nonsing_inv _
      ((Matrix.isUnit_iff_isUnit_det _).1 (gram_isUnit h)), Matrix.one_mul]
  have h1 : ((vander half order).transpose * vander half order).mulVec
      ((pinv (vander half order)).mulVec y) e = (vander half order).transpose.mulVec y e := by
    rw [Matrix.mulVec_mulVec, hm]
  simp only [Matrix.mulVec, dotProduct, Matrix.mul_apply, Matrix.transpose_apply, vander] at h1
  refine Eq.trans ?_ h1
  refine Finset.sum_congr rfl fun (g : Fin (order + 1)) _ => ?_
  congr 1
  exact Finset.sum_congr rfl fun i _ => by rw [pow_add]

theorem range_getD {n i : ℕ} (hi : i < n) (g : ℕ → ℝ) :
    ((List.range n).map g).getD i 0 = g i := by
  rw [List.getD_eq_getElem?_getD, List.getElem?_map, List.getElem?_range hi]; rfl

/-- **C94, rising signals.** With an order of at least 1 a signal `c + a i` that does not fall is
reproduced at every sample, including the ends. -/
theorem C94_rising_line {w o : ℤ} {f : SavGol}
    (hf : savgolInit w o 0 false = .ok f) (ho : 1 ≤ o.natAbs) (X : List ℝ)
    (hx : X.Pairwise (· ≤ ·)) (hn : w.natAbs < 2 * X.length) (a c : ℝ) (ha : 0 ≤ a) :
    savgol f X ((List.range X.length).map fun k : ℕ => a * (k : ℝ) + c) =
      .ok (X, (List.range X.length).map fun k : ℕ => a * (k : ℝ) + c) := by
  obtain ⟨Y2, e1, e2⟩ := C94_affine_equivariance hf X ((List.range X.length).map fun k : ℕ => (k : ℝ))
    (by simp) hx hn a c ha
  rw [List.map_map] at e2
  refine e2.trans ?_
  obtain ⟨rfl, h1, h2⟩ := savgolInit_ok hf
  have hne : X ≠ [] := by rintro rfl; simp at hn
  obtain ⟨h, hw⟩ : ∃ h, w.natAbs = 2 * h + 1 := ⟨(w.natAbs - 1) / 2, by omega⟩
  have hhalf : (w.natAbs - 1) / 2 = h := by omega
  rw [savgol_eq rfl (d := 0) rfl (Nat.zero_le _) (by simp) hne hx hhalf] at e1
  have e3 := (Prod.mk.inj (Except.ok.inj e1)).2
  have hY : h < ((List.range X.length).map fun k : ℕ => (k : ℝ)).length := by simp; omega
  obtain ⟨g1, g2⟩ := convolve_padded (half := h)
    (fun i => pinv (vander h o.natAbs) ⟨0, by omega⟩ i) hY
  simp only at e3
  rw [e3] at g1 g2
  have hlen : Y2.length = X.length := by rw [g1]; simp
  have hpad : ∀ q, q < X.length + 2 * h →
      (padded h ((List.range X.length).map fun k : ℕ => (k : ℝ))).getD q 0 = (q : ℝ) - h := by
    intro q hq
    have hl' : ((List.range X.length).map fun k : ℕ => (k : ℝ)).length = X.length := by simp
    rcases Nat.lt_or_ge q h with c1 | c1
    · rw [padded_first hY c1, range_getD (by omega) (fun k : ℕ => (k : ℝ)),
        range_getD (by omega) (fun k : ℕ => (k : ℝ)), Nat.cast_sub c1.le]
      have : (q : ℝ) ≤ h := by exact_mod_cast c1.le
      rw [abs_of_nonneg (by push_cast; linarith)]
      push_cast; ring
    · rcases Nat.lt_or_ge q (h + X.length) with c2 | c2
      · rw [padded_mid hY c1 (by rw [hl']; exact c2), range_getD (by omega) (fun k : ℕ => (k : ℝ)),
          Nat.cast_sub c1]
      · obtain ⟨r, rfl⟩ : ∃ r, q = h + X.length + r := ⟨q - (h + X.length), by omega⟩
        have e := padded_last hY (r := r) (by omega)
        rw [hl'] at e
        rw [e, range_getD (by omega) (fun k : ℕ => (k : ℝ)),
          range_getD (by omega) (fun k : ℕ => (k : ℝ)), Nat.cast_sub (by omega),
          Nat.cast_sub (by omega), Nat.cast_sub (by omega)]
        have : (0:ℝ) ≤ r := Nat.cast_nonneg r
        rw [abs_of_nonpos (by push_cast; linarith)]
        push_cast; ring
  congr 2
  apply List.ext_getElem (by simp [hlen])
  intro j j1 j2
  have hj : j < X.length := by simpa [hlen] using j1
  have := g2 j (by simpa using hj)
  rw [List.getElem_map, List.getElem_map, List.getElem_range]
  have e : Y2[j]'(by omega) = (j : ℝ) := by
    rw [List.getD_eq_getElem?_getD, List.getElem?_eq_getElem (by omega)] at this
    refine this.trans ?_
    have hp := row_poly (half := h) (order := o.natAbs) (by omega) (Polynomial.X : ℝ[X])
      (by simpa using ho) (j : ℝ) ⟨0, by omega⟩
    simp only [eval_X, pow_zero, one_mul, taylor_coeff_zero] at hp
    refine Eq.trans ?_ hp
    refine Finset.sum_congr rfl fun k _ => ?_
    have hk := k.2
    rw [hpad _ (by omega), Nat.cast_sub (by omega)]
    push_cast; ring
  rw [e]

theorem sum_abs_window (h : ℕ) :
    ∑ i : Fin (2 * h + 1), |(i : ℝ) - h| = h * (h + 1) := by
  rw [← Finset.sum_range (fun i : ℕ => |(i : ℝ) - h|), show 2 * h + 1 = h + (h + 1) by ring,
    Finset.sum_range_add]
  have hA : ∑ i ∈ Finset.range h, |(i : ℝ) - h| = ∑ i ∈ Finset.range h, ((h : ℝ) - i) :=
    Finset.sum_congr rfl fun i hi => by
      have : (i : ℝ) ≤ h := by exact_mod_cast (Finset.mem_range.1 hi).le
      rw [abs_of_nonpos (by linarith)]; ring
  have hB : ∑ i ∈ Finset.range (h + 1), |((h + i : ℕ) : ℝ) - h| = ∑ i ∈ Finset.range (h + 1), (i : ℝ) :=
    Finset.sum_congr rfl fun i _ => by
      push_cast
      rw [add_sub_cancel_left, abs_of_nonneg (Nat.cast_nonneg i)]
  have hS : ∀ n : ℕ, ∑ i ∈ Finset.range n, (i : ℝ) = n * (n - 1) / 2 := by
    intro n
    induction n with
    | zero => simp
    | succ n ih => rw [Finset.sum_range_succ, ih]; push_cast; ring
  rw [hA, hB, Finset.sum_sub_distrib, hS, hS]
  simp only [Finset.sum_const, Finset.card_range, nsmul_eq_mul]
  push_cast; ring

/-- **C94, falling signals.** With order 1 and half window `h`, the first value returned for the signal
`c - a i` is not `c` but `c - a h (h + 1) / (2 h + 1)`: falling lines are not reproduced at the
ends. -/
theorem C94_falling_line {w : ℤ} {f : SavGol}
    (hf : savgolInit w 1 0 false = .ok f) (X : List ℝ) (hx : X.Pairwise (· ≤ ·)) (h : ℕ)
    (hw : w.natAbs = 2 * h + 1) (hn : h < X.length) (a c : ℝ) (ha : 0 ≤ a) :
    ∃ Y2, savgol f X ((List.range X.length).map fun k : ℕ => c - a * (k : ℝ)) = .ok (X, Y2) ∧
      Y2.getD 0 0 = c - a * (h * (h + 1) / (2 * h + 1)) := by
  obtain ⟨rfl, h1, h2⟩ := savgolInit_ok hf
  have hne : X ≠ [] := by rintro rfl; simp at hn
  have hhalf : (w.natAbs - 1) / 2 = h := by omega
  have h2' : 3 ≤ w.natAbs := h2
  refine ⟨_, savgol_eq rfl (d := 0) rfl (Nat.zero_le _) (by simp) hne hx hhalf, ?_⟩
  have hl' : ((List.range X.length).map fun k : ℕ => c - a * (k : ℝ)).length = X.length := by simp
  have hY : h < ((List.range X.length).map fun k : ℕ => c - a * (k : ℝ)).length := by rw [hl']; exact hn
  rw [(convolve_padded _ hY).2 0 (by omega)]
  change ∑ i : Fin (2 * h + 1), pinv (vander h 1) 0 i * _ = _
  have hpad : ∀ i : Fin (2 * h + 1),
      (padded h ((List.range X.length).map fun k : ℕ => c - a * (k : ℝ))).getD (0 + 2 * h - i) 0 =
        c + (-a) * |(i : ℝ) - h| := by
    intro i
    have hi := i.2
    rcases Nat.lt_or_ge (h : ℕ) i with c1 | c1
    · rw [padded_first hY (by omega), range_getD (by omega) (fun k : ℕ => c - a * (k : ℝ)),
        range_getD (by omega) (fun k : ℕ => c - a * (k : ℝ)),
        show h - (0 + 2 * h - (i : ℕ)) = i - h by omega, Nat.cast_sub c1.le]
      have : (h : ℝ) ≤ i := by exact_mod_cast c1.le
      rw [abs_of_nonneg (show (0:ℝ) ≤ (i : ℝ) - h by linarith), abs_of_nonpos (by
        push_cast
        have := mul_nonneg ha (show (0:ℝ) ≤ (i : ℝ) - h by linarith)
        linarith)]
      push_cast; ring
    · rw [padded_mid hY (by omega) (by omega), range_getD (by omega) (fun k : ℕ => c - a * (k : ℝ)),
        show 0 + 2 * h - (i : ℕ) - h = h - i by omega, Nat.cast_sub c1]
      have : (i : ℝ) ≤ h := by exact_mod_cast c1
      rw [abs_of_nonpos (by linarith)]
      ring
  simp only [hpad, mul_add, Finset.sum_add_distrib]
  have hs := kernel_sum (half := h) (order := 1) (by omega) 0
  simp only [Fin.val_zero, if_true] at hs
  have hN := normal_equations (half := h) (order := 1) (by omega) (fun i => |(i : ℝ) - h|) 0
  rw [Fin.sum_univ_two] at hN
  simp only [Fin.val_zero, Fin.val_one, add_zero, zero_add, pow_zero, pow_one, one_mul,
    Finset.sum_const, Finset.card_univ, Fintype.card_fin, nsmul_eq_mul, mul_one, sum_abs_window] at hN
  have hk : ∑ i : Fin (2 * h + 1), ((i : ℝ) - h) = 0 := by
    rw [← Finset.sum_range (fun i : ℕ => (i : ℝ) - h), Finset.sum_sub_distrib]
    have hS : ∀ n : ℕ, ∑ i ∈ Finset.range n, (i : ℝ) = n * (n - 1) / 2 := by
      intro n
      induction n with
      | zero => simp
      | succ n ih => rw [Finset.sum_range_succ, ih]; push_cast; ring
    rw [hS]
    simp only [Finset.sum_const, Finset.card_range, nsmul_eq_mul]
    push_cast; ring
  rw [hk, zero_mul, add_zero] at hN
  have hpos : (0:ℝ) < 2 * h + 1 := by positivity
  have hfit : ∑ i : Fin (2 * h + 1), pinv (vander h 1) 0 i * |(i : ℝ) - h| =
      h * (h + 1) / (2 * h + 1) := by
    rw [eq_div_iff hpos.ne', ← hN]; push_cast; ring
  rw [← Finset.sum_mul, hs, one_mul]
  have : ∑ i : Fin (2 * h + 1), pinv (vander h 1) 0 i * (-a * |(i : ℝ) - h|) =
      -a * ∑ i : Fin (2 * h + 1), pinv (vander h 1) 0 i * |(i : ℝ) - h| := by
    rw [Finset.mul_sum]; exact Finset.sum_congr rfl fun i _ => by ring
  rw [this, hfit]; ring

/-- Window 11: the first value of a signal falling by 11 per sample is 30 too low. -/
example : ∃ f Y2, savgolInit 11 1 0 false = .ok f ∧
    savgol f ((List.range 20).map fun k : ℕ => (k : ℝ))
      ((List.range 20).map fun k : ℕ => 1000 - 11 * (k : ℝ)) =
      .ok ((List.range 20).map fun k : ℕ => (k : ℝ), Y2) ∧ Y2.getD 0 0 = 970 := by
  obtain ⟨Y2, h1, h2⟩ := C94_falling_line (w := 11) (f := ⟨false, 11, 1, 0⟩) rfl
    ((List.range 20).map fun k : ℕ => (k : ℝ))
    (List.pairwise_map.2 (List.pairwise_le_range.imp fun h => by exact_mod_cast h)) 5 rfl (by simp)
    11 1000 (by norm_num)
  refine ⟨_, Y2, rfl, by simpa using h1, ?_⟩
  rw [h2]; norm_num

end Verif.Props
