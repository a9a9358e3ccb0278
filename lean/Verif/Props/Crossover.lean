import Verif.Lemmas.Crossover

/-!
# C11, C12: crossover altitude
-/

namespace Verif.Props
open Verif.Aero Verif.Spec Verif.Comp

/-- **C11.** Crossover altitude strictly decreases with CAS, strictly increases with Mach,
is zero exactly when `CAS / a0 = Mach`, is constant below the Mach floor, and encodes the
ratio of the two impact pressures through the tropospheric pressure law. -/
theorem C11_crossover (dT : ℝ) (hd : -288.15 < dT) :
    (∀ m, 1e-4 ≤ m → StrictAntiOn (fun v => crossoverAlt np v m dT) (Set.Ici 0)) ∧
    (∀ v, 0 < v → StrictMonoOn (fun m => crossoverAlt np v m dT) (Set.Ici 1e-4)) ∧
    (∀ v m, 0 < v → 1e-4 ≤ m → (crossoverAlt np v m dT = 0 ↔ v / 340.293988 = m)) ∧
    (∀ v m, m ≤ 1e-4 → crossoverAlt np v m dT = crossoverAlt np v 1e-4 dT) ∧
    (∀ v m, 0 < v → 1e-4 ≤ m →
      (1 - 0.0065 * crossoverAlt np v m dT / (288.15 + dT)) ^ (9.80665 / (0.0065 * 287.05287) : ℝ) *
        ((1 + 0.2 * m ^ 2) ^ (3.5 : ℝ) - 1) = (1 + 0.2 * (v / 340.293988) ^ 2) ^ (3.5 : ℝ) - 1) := by
  have hT : 0 < 288.15 + dT := by linarith
  have hc : 0 < (288.15 + dT) / 0.0065 := by positivity
  have ha := aExp_pos
  refine ⟨?_, ?_, ?_, ?_, ?_⟩
  · intro m hm v hv w _ hvw
    rw [Set.mem_Ici] at hv
    have hm0 : 0 < m := lt_of_lt_of_le (by norm_num) hm
    have hF := F_pos (u := 0.2 * m ^ 2) (by positivity)
    simp only
    rw [crossover_eq dT hm, crossover_eq dT hm]
    have hlt : crossDelta v m < crossDelta w m := by
      unfold crossDelta
      have : F (0.2 * (v / 340.293988) ^ 2) < F (0.2 * (w / 340.293988) ^ 2) :=
        F_strictMono (by positivity) (by gcongr)
      gcongr
    have h0 : 0 ≤ crossDelta v m := by
      unfold crossDelta
      exact div_nonneg (F_nonneg (by positivity)) hF.le
    have := Real.rpow_lt_rpow h0 hlt ha
    nlinarith
  · intro v hv m hm n hn hmn
    rw [Set.mem_Ici] at hm hn
    have hm0 : 0 < m := lt_of_lt_of_le (by norm_num) hm
    have hF := F_pos (u := 0.2 * m ^ 2) (by positivity)
    simp only
    rw [crossover_eq dT hm, crossover_eq dT hn]
    have hlt : crossDelta v n < crossDelta v m := by
      unfold crossDelta
      have : F (0.2 * m ^ 2) < F (0.2 * n ^ 2) :=
        F_strictMono (by positivity) (by gcongr)
      exact div_lt_div_of_pos_left (F_pos (by positivity)) hF this
    have := Real.rpow_lt_rpow (crossDelta_pos hv (by linarith)).le hlt ha
    nlinarith
  · intro v m hv hm
    have hm0 : 0 < m := lt_of_lt_of_le (by norm_num) hm
    have hF := F_pos (u := 0.2 * m ^ 2) (by positivity)
    have hd0 := crossDelta_pos hv hm0
    rw [crossover_eq dT hm]
    constructor
    · intro h
      have h1 : crossDelta v m ^ aExp = 1 := by
        rcases mul_eq_zero.1 h with h | h
        · exact absurd h hc.ne'
        · linarith
      have h2 : crossDelta v m = 1 := by
        have h5 : (crossDelta v m ^ aExp) ^ (1 / aExp) = crossDelta v m := by
          rw [← Real.rpow_mul hd0.le, mul_one_div_cancel ha.ne', Real.rpow_one]
        rw [← h5, h1, Real.one_rpow]
      unfold crossDelta at h2
      rw [div_eq_one_iff_eq hF.ne'] at h2
      have h3 : 0.2 * (v / 340.293988) ^ 2 = 0.2 * m ^ 2 :=
        le_antisymm ((F_le_iff (by positivity) (by positivity)).1 h2.le)
          ((F_le_iff (by positivity) (by positivity)).1 h2.ge)
      have h4 : (v / 340.293988) ^ 2 = m ^ 2 := by linarith
      exact (pow_left_inj₀ (by positivity) hm0.le (by norm_num)).1 h4
    · intro h
      have : crossDelta v m = 1 := by
        unfold crossDelta; rw [h, div_self hF.ne']
      rw [this, Real.one_rpow]; ring
  · intro v m hm
    simp only [crossoverAlt]
    have e1 : np.maximum m 1e-4 = 1e-4 := by simp only [np]; exact max_eq_right hm
    have e2 : np.maximum 1e-4 1e-4 = 1e-4 := by simp only [np]; exact max_self _
    rw [e1, e2]
  · intro v m hv hm
    have hm0 : 0 < m := lt_of_lt_of_le (by norm_num) hm
    have hF := F_pos (u := 0.2 * m ^ 2) (by positivity)
    have hd0 := crossDelta_pos hv hm0
    rw [crossover_eq dT hm]
    have e1 : 1 - 0.0065 * ((288.15 + dT) / 0.0065 * (1 - crossDelta v m ^ aExp)) / (288.15 + dT) =
        crossDelta v m ^ aExp := by field_simp; ring
    rw [e1, ← Real.rpow_mul hd0.le]
    have e2 : aExp * (9.80665 / (0.0065 * 287.05287)) = 1 := by unfold aExp; norm_num
    rw [e2, Real.rpow_one]
    change crossDelta v m * F (0.2 * m ^ 2) = F (0.2 * (v / 340.293988) ^ 2)
    unfold crossDelta
    field_simp

/-- **C12.** On a standard day, when the crossover altitude is in the troposphere, flying the
given CAS there gives the given Mach number to within 0.02 %. -/
theorem C12_crossover_consistent (v m : ℝ) (hv : 0 < v) (hm : 1e-4 ≤ m)
    (h0 : 0 ≤ crossoverAlt np v m 0) (h1 : crossoverAlt np v m 0 ≤ 11000) :
    |cas2mach np v (crossoverAlt np v m 0) 0 - m| ≤ 0.0002 * m := by
  have hm0 : 0 < m := lt_of_lt_of_le (by norm_num) hm
  obtain ⟨h, hh⟩ : ∃ h, h = crossoverAlt np v m 0 := ⟨_, rfl⟩
  rw [← hh] at h0 h1 ⊢
  have ha := aExp_pos
  have hd0 := crossDelta_pos hv hm0
  have hF := F_pos (u := 0.2 * m ^ 2) (by positivity)
  -- temperature ratio
  obtain ⟨x, hx⟩ : ∃ x, x = (288.15 - 0.0065 * h) / 288.15 := ⟨_, rfl⟩
  have hx0 : 0.7518 ≤ x := by rw [hx, le_div_iff₀ (by norm_num)]; linarith
  have hx1 : x ≤ 1 := by rw [hx, div_le_iff₀ (by norm_num)]; linarith
  have hxp : 0 < x := by linarith
  have hxd : x = crossDelta v m ^ aExp := by
    rw [hx, hh, crossover_eq 0 hm]; field_simp; ring
  have hdx : crossDelta v m = x ^ (1 / aExp) := by
    rw [hxd, ← Real.rpow_mul hd0.le, mul_one_div_cancel ha.ne', Real.rpow_one]
  -- the Mach number actually flown
  obtain ⟨M, hM⟩ : ∃ M, M = cas2mach np v h 0 := ⟨_, rfl⟩
  rw [← hM]
  obtain ⟨n1, e1⟩ := cas2tas_spec v h 0
  have hvs := vsound_pos h 0
  have hM0 : 0 ≤ M := by rw [hM]; simp only [cas2mach, tas2mach]; positivity
  have eM : pressure np h 0 * F (0.2 * M ^ 2) = impactPressure 101325 1.225 v := by
    rw [← impact_mach, hM]
    simp only [cas2mach, tas2mach]
    rw [div_mul_cancel₀ _ hvs.ne', e1]
  rw [pressure_trop h1, ← hx, impact_eq] at eM
  obtain ⟨z, hz⟩ : ∃ z, z = 0.2 * (v / 340.293988) ^ 2 := ⟨_, rfl⟩
  obtain ⟨k, hk⟩ : ∃ k : ℝ, k = 1.225 * 340.293988 ^ 2 / (1.4 * 101325) := ⟨_, rfl⟩
  have hk1 : k ≤ 1 := by rw [hk]; norm_num
  have hk0 : 1 - 1.5e-8 ≤ k := by rw [hk]; norm_num
  have hz0 : 0 < z := by rw [hz]; positivity
  have ekz : 1.225 * v ^ 2 / (7 * 101325) = k * z := by rw [hk, hz]; field_simp; ring
  rw [ekz] at eM
  have hFz : F z = crossDelta v m * F (0.2 * m ^ 2) := by
    unfold crossDelta; rw [hz]; field_simp
  have hFz0 : 0 < F z := F_pos hz0
  -- bounds on F (k z) / F z
  have hkp : 0 < k := by linarith
  have b1 : F (k * z) ≤ F z := F_mono (by positivity) (by nlinarith)
  have b2 : k ^ 4 * F z ≤ F (k * z) := by
    have := F_scale_le (l := 1 / k) (u := k * z) (by rw [le_div_iff₀ hkp]; linarith) (by positivity)
    have e : 1 / k * (k * z) = z := by field_simp
    rw [e] at this
    have h4 : (1 / k) ^ (3.5 : ℝ) ≤ (1 / k) ^ 4 := by
      rw [← Real.rpow_natCast (1 / k) 4]
      exact Real.rpow_le_rpow_of_exponent_le (by rw [le_div_iff₀ hkp]; linarith) (by norm_num)
    have hFk : 0 ≤ F (k * z) := F_nonneg (by positivity)
    have h5 : F z ≤ (1 / k) ^ 4 * F (k * z) := this.trans (by gcongr)
    have h6 := mul_le_mul_of_nonneg_left h5 (show 0 ≤ k ^ 4 by positivity)
    have e2 : k ^ 4 * ((1 / k) ^ 4 * F (k * z)) = F (k * z) := by field_simp
    linarith
  -- the exponent mismatch
  obtain ⟨η, hη⟩ : ∃ η : ℝ, η = 5.256848030018761 - 1 / aExp := ⟨_, rfl⟩
  have hη0 : 0 ≤ η := by rw [hη]; unfold aExp; norm_num
  have hη1 : η ≤ 0.00097 := by rw [hη]; unfold aExp; norm_num
  have hxE : x ^ (5.256848030018761 : ℝ) = crossDelta v m * x ^ η := by
    rw [hdx, ← Real.rpow_add hxp, hη]; congr 1; ring
  have c1 : x ^ η ≤ 1 := Real.rpow_le_one hxp.le hx1 hη0
  have c2 : 1 - 3.21e-4 ≤ x ^ η := by
    rw [Real.rpow_def_of_pos hxp]
    have a1 := Real.add_one_le_exp (Real.log x * η)
    have a2 := Real.one_sub_inv_le_log_of_pos hxp
    have a3 : x⁻¹ ≤ 1.3302 := by
      rw [inv_le_comm₀ hxp (by norm_num)]; norm_num at hx0 ⊢; linarith
    nlinarith
  rw [hxE] at eM
  have hK1 : (101324.998 : ℝ) ≤ K := by unfold K; norm_num
  have hK2 : K ≤ 101325 := by unfold K; norm_num
  -- multiply out: K xη F(M) δ = p0 F(kz) with F z = δ F(m)
  have hFM : 0 ≤ F (0.2 * M ^ 2) := F_nonneg (by positivity)
  have up : (1 - 3.22e-4) * F (0.2 * M ^ 2) ≤ F (0.2 * m ^ 2) := by
    have t1 : crossDelta v m * (K * x ^ η * F (0.2 * M ^ 2)) ≤
        crossDelta v m * (101325 * F (0.2 * m ^ 2)) := by
      calc _ = 101325 * F (k * z) := by rw [← eM]; ring
        _ ≤ 101325 * F z := by gcongr
        _ = _ := by rw [hFz]; ring
    have t2 := le_of_mul_le_mul_left t1 hd0
    have t3 : 101324.998 * (1 - 3.21e-4) ≤ K * x ^ η := by
      apply mul_le_mul hK1 c2 (by norm_num) (by linarith)
    nlinarith
  have lo : (1 - 1e-6) * F (0.2 * m ^ 2) ≤ F (0.2 * M ^ 2) := by
    have t1 : crossDelta v m * (101325 * k ^ 4 * F (0.2 * m ^ 2)) ≤
        crossDelta v m * (K * x ^ η * F (0.2 * M ^ 2)) := by
      calc _ = 101325 * (k ^ 4 * F z) := by rw [hFz]; ring
        _ ≤ 101325 * F (k * z) := by gcongr
        _ = _ := by rw [← eM]; ring
    have t2 := le_of_mul_le_mul_left t1 hd0
    have t3 : K * x ^ η ≤ 101325 * 1 := by
      apply mul_le_mul hK2 c1 (by positivity) (by norm_num)
    have t4 : (1 - 1e-6 : ℝ) ≤ k ^ 4 := by
      calc (1 - 1e-6 : ℝ) ≤ (1 - 1.5e-8) ^ 4 := by norm_num
        _ ≤ k ^ 4 := by gcongr
    have t5 : K * x ^ η * F (0.2 * M ^ 2) ≤ 101325 * 1 * F (0.2 * M ^ 2) := by gcongr
    have t6 : 101325 * (1 - 1e-6) * F (0.2 * m ^ 2) ≤ 101325 * k ^ 4 * F (0.2 * m ^ 2) := by gcongr
    linarith
  exact F_close hM0 hm0 up lo

/-- The hypotheses of C12 are met by an ordinary climb schedule (150 m/s, Mach 0.78), whose
crossover altitude is strictly between sea level and the tropopause. -/
example : 0 < crossoverAlt np 150 0.78 0 ∧ crossoverAlt np 150 0.78 0 ≤ 11000 := by
  have h := C11_crossover 0 (by norm_num)
  constructor
  · have h0 := (h.2.2.1 (340.293988 * 0.78) 0.78 (by norm_num) (by norm_num)).2 (by norm_num)
    have hs := h.1 0.78 (by norm_num)
    have h2 := hs (show (150 : ℝ) ∈ Set.Ici 0 by norm_num [Set.mem_Ici])
      (show (340.293988 * 0.78 : ℝ) ∈ Set.Ici 0 by norm_num [Set.mem_Ici]) (by norm_num)
    simp only [h0] at h2
    exact h2
  · rw [crossover_eq 0 (by norm_num)]
    have f1 : (0.136 : ℝ) ≤ F (0.2 * (150 / 340.293988) ^ 2) := by
      have := one_add_mul_self_le_rpow_one_add (s := 0.2 * (150 / 340.293988 : ℝ) ^ 2) (p := 3.5)
        (by norm_num) (by norm_num)
      unfold F
      norm_num at this ⊢
      linarith
    have f2 : F (0.2 * 0.78 ^ 2) ≤ 0.5831 := by
      unfold F
      have : (1 + 0.2 * 0.78 ^ 2 : ℝ) ^ (3.5 : ℝ) ≤ 1.5831 :=
        Num.rpow_le_of_one_le 4 1 (by norm_num) (by norm_num) (by norm_num) (by norm_num)
          (by norm_num)
      linarith
    have f3 : 0 < F (0.2 * (0.78 : ℝ) ^ 2) := F_pos (by norm_num)
    have f4 : (0.2332 : ℝ) ≤ crossDelta 150 0.78 := by
      unfold crossDelta
      rw [le_div_iff₀ f3]
      linarith
    have f5 : (0.7518653480 : ℝ) ≤ (0.2332 : ℝ) ^ aExp :=
      Num.le_rpow_of_le_one 4 21 (by norm_num) (by norm_num) (by norm_num) (by norm_num)
        (by unfold aExp; norm_num) (by norm_num)
    have f6 : (0.2332 : ℝ) ^ aExp ≤ crossDelta 150 0.78 ^ aExp :=
      Real.rpow_le_rpow (by norm_num) f4 aExp_pos.le
    generalize crossDelta 150 0.78 ^ aExp = A at *
    generalize (0.2332 : ℝ) ^ aExp = B at *
    norm_num at *
    linarith

end Verif.Props
