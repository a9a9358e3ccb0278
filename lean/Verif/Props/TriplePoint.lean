import Verif.Props.Contrail
import Verif.Lemmas.Interval

/-!
# C44: where the two saturation curves cross
-/

namespace Verif.Props
open Verif.Contrail Real

/-- Enclosure of the difference of the two exponents at `n / d`. -/
private def iDiff (n d : ℤ) : Interval.Iv :=
  let T := Interval.rat n d
  let L := Interval.log T
  Interval.sub
    (Interval.add
      (Interval.add (Interval.sub (Interval.sub (Interval.rat 54842763 1000000)
        (Interval.div (Interval.rat 676322 100) T)) (Interval.mul (Interval.rat 421 100) L))
        (Interval.mul (Interval.rat 367 1000000) T))
      (Interval.mul (Interval.tanh (Interval.mul (Interval.rat 415 10000)
          (Interval.sub T (Interval.rat 2188 10))))
        (Interval.add (Interval.sub (Interval.sub (Interval.rat 53878 1000)
          (Interval.div (Interval.rat 133122 100) T)) (Interval.mul (Interval.rat 944523 100000) L))
          (Interval.mul (Interval.rat 14025 1000000) T))))
    (Interval.sub (Interval.add (Interval.sub (Interval.rat 9550426 1000000)
      (Interval.div (Interval.rat 5723265 1000) T)) (Interval.mul (Interval.rat 353068 100000) L))
      (Interval.mul (Interval.rat 728332 100000000) T))

private theorem has_iDiff (n d : ℤ) : Interval.Has (iDiff n d) (W (n / d) - I (n / d)) := by
  have r : ∀ (a b : ℤ) (x : ℝ), x = a / b → Interval.Has (Interval.rat a b) x := by
    rintro a b x rfl
    exact Interval.has_rat a b
  have hT := Interval.has_rat n d
  have hL := hT.log
  unfold W I B iDiff
  refine (((((r _ _ _ ?_).sub ((r _ _ _ ?_).div hT)).sub ((r _ _ _ ?_).mul hL)).add
    ((r _ _ _ ?_).mul hT)).add ((((r _ _ _ ?_).mul (hT.sub (r _ _ _ ?_))).tanh).mul
    ((((r _ _ _ ?_).sub ((r _ _ _ ?_).div hT)).sub ((r _ _ _ ?_).mul hL)).add
      ((r _ _ _ ?_).mul hT)))).sub
    ((((r _ _ _ ?_).sub ((r _ _ _ ?_).div hT)).add ((r _ _ _ ?_).mul hL)).sub ((r _ _ _ ?_).mul hT))
  all_goals norm_num

/-- The difference falls near the crossing. -/
private theorem diff_anti : StrictAntiOn (fun T => W T - I T) (Set.Icc 273 274) := by
  refine strictAntiOn_of_deriv_neg (convex_Icc _ _) (fun x hx => ?_) (fun x hx => ?_)
  · have hT : 0 < x := by linarith [hx.1]
    exact ((hasDerivAt_W hT).sub (hasDerivAt_I hT)).continuousAt.continuousWithinAt
  · rw [interior_Icc] at hx
    have hT : 0 < x := by linarith [hx.1]
    have hd : HasDerivAt (fun T => W T - I T) _ x := (hasDerivAt_W hT).sub (hasDerivAt_I hT)
    rw [hd.deriv]
    have ht := tanh_sq_le (0.0415 * (x - 218.8))
    have ht0 : 0 ≤ tanh (0.0415 * (x - 218.8)) := by
      rw [tanh_eq_sinh_div_cosh]
      exact div_nonneg (sinh_nonneg_iff.2 (by linarith [hx.1])) (cosh_pos _).le
    generalize tanh (0.0415 * (x - 218.8)) = t at ht ht0
    have hB := B_neg hT (by linarith [hx.2])
    have hsq : 0 ≤ 1 - t ^ 2 := by nlinarith
    have h1 : (1 - t ^ 2) * 0.0415 * B x ≤ 0 :=
      mul_nonpos_of_nonneg_of_nonpos (by positivity) hB.le
    have hx2 : x ^ 2 ≤ 274 ^ 2 := by nlinarith [hx.2]
    have hx3 : 273 ^ 2 ≤ x ^ 2 := by nlinarith [hx.1]
    have h2 : t * (1331.22 / x ^ 2 - 9.44523 / x + 0.014025) ≤ 0 := by
      refine mul_nonpos_of_nonneg_of_nonpos ht0 ?_
      have a1 : 1331.22 / x ^ 2 ≤ 1331.22 / 273 ^ 2 := by gcongr
      have a2 : 9.44523 / 274 ≤ 9.44523 / x := by gcongr; exact hx.2.le
      norm_num at a1 a2 ⊢
      linarith
    have h3 : 6763.22 / x ^ 2 - 5723.265 / x ^ 2 ≤ 1039.955 / 273 ^ 2 := by
      rw [← sub_div, show (6763.22 - 5723.265 : ℝ) = 1039.955 by norm_num]
      gcongr
    have h4 : (4.210 + 3.53068) / 274 ≤ 4.210 / x + 3.53068 / x := by
      rw [← add_div]
      gcongr
      exact hx.2.le
    unfold I'
    norm_num at h3 h4 ⊢
    linarith

/-- **C44, crossing.** The two saturation curves meet at exactly one temperature between 110 K and
332 K; it lies within 0.3 mK of the triple point, 273.16 K. Below it the pressure over ice is the
smaller one, above it the pressure over water. -/
theorem C44_crossing : ∃ T₀, 273.1597 < T₀ ∧ T₀ < 273.1603 ∧ ∀ T, 110 ≤ T → T ≤ 332 →
    (satIce T < satWater T ↔ T < T₀) ∧ (satIce T = satWater T ↔ T = T₀) ∧
    (satWater T < satIce T ↔ T₀ < T) := by
  have e1 : 0 < W 273.1597 - I 273.1597 := by
    have h := has_iDiff 2731597 10000
    rw [show ((2731597 : ℤ) : ℝ) / (10000 : ℤ) = 273.1597 by norm_num] at h
    have := Interval.of_above (n := 0) (d := 1) (by decide +kernel) h
    rwa [Int.cast_zero, zero_div] at this
  have e2 : W 273.1603 - I 273.1603 < 0 := by
    have h := has_iDiff 2731603 10000
    rw [show ((2731603 : ℤ) : ℝ) / (10000 : ℤ) = 273.1603 by norm_num] at h
    have := Interval.of_below (n := 0) (d := 1) (by decide +kernel) h
    rwa [Int.cast_zero, zero_div] at this
  have hc : ContinuousOn (fun T => W T - I T) (Set.Icc 273.1597 273.1603) := by
    intro x hx
    have hT : 0 < x := by linarith [hx.1]
    exact ((hasDerivAt_W hT).sub (hasDerivAt_I hT)).continuousAt.continuousWithinAt
  obtain ⟨T₀, hT, h0⟩ := intermediate_value_Ioo' (by norm_num) hc (Set.mem_Ioo.2 ⟨e2, e1⟩)
  refine ⟨T₀, hT.1, hT.2, ?_⟩
  have lo : ∀ T, 110 ≤ T → T < T₀ → satIce T < satWater T := by
    intro T h1 h2
    by_cases h : T ≤ 273.15
    · exact C44_saturation.2.2.2.1 T h1 h
    · have := diff_anti (a := T) (b := T₀) ⟨by linarith, by linarith [hT.2]⟩
        ⟨by linarith [hT.1], by linarith [hT.2]⟩ h2
      simp only at this h0
      refine exp_lt_exp.2 (?_ : I T < W T)
      linarith
  have hi : ∀ T, T ≤ 332 → T₀ < T → satWater T < satIce T := by
    intro T h1 h2
    by_cases h : 273.2 ≤ T
    · exact C44_saturation.2.2.2.2 T h h1
    · have := diff_anti (a := T₀) (b := T) ⟨by linarith [hT.1], by linarith [hT.2]⟩
        ⟨by linarith [hT.1], by linarith⟩ h2
      simp only at this h0
      refine exp_lt_exp.2 (?_ : W T < I T)
      linarith
  have eq : satIce T₀ = satWater T₀ := by
    simp only at h0
    rw [satIce_eq, satWater_eq, sub_eq_zero.1 h0]
  intro T h1 h2
  rcases lt_trichotomy T T₀ with h | rfl | h
  · have := lo T h1 h
    exact ⟨⟨fun _ => h, fun _ => this⟩, ⟨fun h' => absurd h' this.ne, fun h' => absurd h' h.ne⟩,
      ⟨fun h' => absurd h' this.asymm, fun h' => absurd h' h.asymm⟩⟩
  · exact ⟨⟨fun h => absurd eq h.ne, fun h => absurd rfl h.ne⟩, ⟨fun _ => rfl, fun _ => eq⟩,
      ⟨fun h => absurd eq.symm h.ne, fun h => absurd rfl h.ne⟩⟩
  · have := hi T h2 h
    exact ⟨⟨fun h' => absurd h' this.asymm, fun h' => absurd h' h.asymm⟩,
      ⟨fun h' => absurd h'.symm this.ne, fun h' => absurd h'.symm h.ne⟩, ⟨fun _ => h, fun _ => this⟩⟩

/-- At -10 °C the pressure over ice is the smaller one, at 10 °C that over water. -/
example : satIce 263.15 < satWater 263.15 ∧ satWater 283.15 < satIce 283.15 := by
  obtain ⟨T₀, h1, h2, h⟩ := C44_crossing
  exact ⟨(h 263.15 (by norm_num) (by norm_num)).1.2 (by linarith),
    (h 283.15 (by norm_num) (by norm_num)).2.2.2 (by linarith)⟩

end Verif.Props
