import Verif.Lemmas.ApplemanCurve
import Verif.Lemmas.ApplemanFit
import Verif.Props.Contrail
import Verif.Spec.Appleman

/-!
# C135: the contrail thresholds against the exact criterion
-/

namespace Verif.Props
open Verif Verif.Contrail Verif.Spec Verif.Interval
open Real hiding exp log tanh

theorem curvature {T : ℝ} (h1 : 123 ≤ T) (h2 : T ≤ 332) :
    0 < W1 T ∧ 0 < W2 T + W1 T ^ 2 ∧ (218 < T → T < 251 → W2 T + W1 T ^ 2 < 0.13 * W1 T) := by
  obtain ⟨i, hi, a, b⟩ := exists_cell (n := 123) (d := 1) (k := 209) (x := T) (by norm_num)
    (by norm_num) (by norm_num; exact h1) (by norm_num; exact h2)
  have t := of_all curved_all i hi
  have hT := has_cell a b
  simp only [curved, forceIv_eq, Bool.and_eq_true, Bool.or_eq_true] at t
  have hb := has_iB hT hT.inv hT.log
  have hw := has_iW1 hT.inv (has_iTanh hT) hb (has_iB1 hT.inv)
  have hw2 := has_iW2 hT.inv (has_iTanh hT) hb (has_iB1 hT.inv)
  have p1 := of_above t.1.1 hw
  have p2 := of_above t.1.2 (hw2.add (hw.mul hw))
  rw [← sq] at p2
  norm_num at p1 p2
  refine ⟨p1, p2, fun h3 h4 => ?_⟩
  rcases t.2 with h | h
  · exfalso
    push_cast at a b
    rcases h with h | h
    · have h : i + 1 ≤ 95 := Nat.le_of_ble_eq_true h
      have : (i : ℝ) + 1 ≤ 95 := by exact_mod_cast h
      linarith
    · have h : 127 + 1 ≤ i := Nat.le_of_ble_eq_true h
      have : (127 : ℝ) + 1 ≤ i := by exact_mod_cast h
      linarith
  · have := of_below h ((hw2.add (hw.mul hw)).sub ((has_rat 13 100).mul hw))
    rw [← sq] at this
    norm_num at this ⊢
    linarith

theorem slopeWater_strictMono : StrictMonoOn slopeWater (Set.Icc 123 332) := by
  refine strictMonoOn_of_deriv_pos (convex_Icc _ _)
    (fun x hx => (hasDerivAt_slopeWater (by linarith [hx.1])).continuousAt.continuousWithinAt)
    (fun x hx => ?_)
  rw [interior_Icc] at hx
  rw [(hasDerivAt_slopeWater (by linarith [hx.1])).deriv]
  exact mul_pos (exp_pos _) (curvature hx.1.le hx.2.le).2.1

theorem slope_ends : 0.1 < slopeWater 219 ∧ slopeWater 219 < 0.5 ∧ 8 < slopeWater 250 := by
  have t := ends_all
  simp only [Bool.and_eq_true] at t
  have a : Has (rat 219 1) 219 := by simpa using has_rat 219 1
  have b : Has (rat 250 1) 250 := by simpa using has_rat 250 1
  have h1 := of_below t.1.1 (has_iSlope a)
  have h2 := of_above t.1.2 (has_iSlope a)
  have h3 := of_above t.2 (has_iSlope b)
  norm_num at h1 h2 h3 ⊢
  exact ⟨h2, h1, h3⟩

/-- The fitted threshold for the slope at `T` is within 0.1 K of `T`. -/
theorem fit_close {T : ℝ} (h1 : 219 ≤ T) (h2 : T ≤ 250) :
    |thresholdWater (slopeWater T) - T| < 0.1 := by
  obtain ⟨i, hi, a, b⟩ := exists_cell (n := 5475) (d := 25) (k := 775) (x := T) (by norm_num)
    (by norm_num) (by norm_num; exact h1) (by norm_num; exact h2)
  have near : ∀ j : ℕ, j < 776 → |thresholdWater (slopeWater (((5475 + j : ℤ) : ℝ) / 25)) -
      ((5475 + j : ℤ) : ℝ) / 25| < 0.06 := by
    intro j hj
    have t := of_all close_all j hj
    simp only [close, forceIv_eq, Bool.and_eq_true] at t
    have hT : Has (rat (5475 + j) 25) (((5475 + j : ℤ) : ℝ) / 25) := by
      have := has_rat (5475 + j) 25
      rwa [show ((25 : ℤ) : ℝ) = 25 by norm_num] at this
    have hd := (has_iThreshold (has_iSlope hT)).sub hT
    have p1 := of_above t.1 hd
    have p2 := of_below t.2 hd
    norm_num at p1 p2
    rw [abs_lt]
    norm_num
    exact ⟨p1, p2⟩
  have n1 := near i (by omega)
  have n2 := near (i + 1) (by omega)
  push_cast at a b n1 n2
  have e : ((5475 : ℝ) + i + 1) / 25 = ((5475 : ℝ) + i) / 25 + 0.04 := by ring
  rw [← add_assoc] at n2
  have hi' : (i : ℝ) + 1 ≤ 775 := by exact_mod_cast hi
  have hi0 : (0 : ℝ) ≤ i := Nat.cast_nonneg i
  rw [e] at b n2
  have x1 : 219 ≤ ((5475 : ℝ) + i) / 25 := by linarith
  have x2 : ((5475 : ℝ) + i) / 25 + 0.04 ≤ 250 := by linarith
  generalize ((5475 : ℝ) + i) / 25 = x at *
  have lo : ∀ y, 219 ≤ y → y ≤ 251 → 0.0545 ≤ slopeWater y := by
    intro y hy hy'
    have := slopeWater_strictMono.monotoneOn (a := 219) (b := y) ⟨by norm_num, by norm_num⟩
      ⟨by linarith, by linarith⟩ hy
    linarith [slope_ends.1]
  have mono : ∀ y z, 219 ≤ y → y ≤ z → z ≤ 250 →
      thresholdWater (slopeWater y) ≤ thresholdWater (slopeWater z) := by
    intro y z hy hyz hz
    rcases hyz.lt_or_eq with h | rfl
    · exact (threshold_lt (lo y hy (by linarith)) (slopeWater_strictMono
        ⟨by linarith, by linarith⟩ ⟨by linarith, by linarith⟩ h)).le
    · exact le_rfl
  have m1 := mono x T x1 a h2
  have m2 := mono T (x + 0.04) h1 b x2
  rw [abs_lt] at *
  constructor <;> linarith [n1.1, n2.2]

/-- For every slope in the range there is a temperature at which the saturation curve has it. -/
theorem exists_tangent {G : ℝ} (h1 : 0.5 ≤ G) (h2 : G ≤ 8) :
    ∃ Tx, 219 < Tx ∧ Tx < 250 ∧ slopeWater Tx = G := by
  have hc : ContinuousOn slopeWater (Set.Icc 219 250) := fun x hx =>
    (hasDerivAt_slopeWater (by linarith [hx.1])).continuousAt.continuousWithinAt
  obtain ⟨e1, e2, e3⟩ := slope_ends
  obtain ⟨x, hx, hG⟩ := intermediate_value_Ioo (by norm_num) hc
    (show G ∈ Set.Ioo _ _ from ⟨by linarith, by linarith⟩)
  exact ⟨x, hx.1, hx.2, hG⟩

theorem mean_value {x y : ℝ} (hx : 123 ≤ x) (hxy : x < y) :
    ∃ z, x < z ∧ z < y ∧ satWater y - satWater x = slopeWater z * (y - x) := by
  obtain ⟨z, hz, e⟩ := exists_hasDerivAt_eq_slope satWater slopeWater hxy
    (fun t ht => (hasDerivAt_satWater (by linarith [ht.1])).continuousAt.continuousWithinAt)
    (fun t ht => hasDerivAt_satWater (by linarith [ht.1]))
  refine ⟨z, hz.1, hz.2, ?_⟩
  rw [e]
  have : y - x ≠ 0 := by linarith
  field_simp

theorem mean_value_slope {x y : ℝ} (hx : 123 ≤ x) (hxy : x < y) :
    ∃ z, x < z ∧ z < y ∧ slopeWater y - slopeWater x = satWater z * (W2 z + W1 z ^ 2) * (y - x) := by
  obtain ⟨z, hz, e⟩ := exists_hasDerivAt_eq_slope slopeWater
    (fun z => satWater z * (W2 z + W1 z ^ 2)) hxy
    (fun t ht => (hasDerivAt_slopeWater (by linarith [ht.1])).continuousAt.continuousWithinAt)
    (fun t ht => hasDerivAt_slopeWater (by linarith [ht.1]))
  refine ⟨z, hz.1, hz.2, ?_⟩
  rw [e]
  have : y - x ≠ 0 := by linarith
  field_simp

/-- The curve lies above its tangents. -/
theorem tangent_le {x y : ℝ} (hx : 123 ≤ x) (hx' : x ≤ 332) (hy : 123 ≤ y) (hy' : y ≤ 332) :
    satWater y + slopeWater y * (x - y) ≤ satWater x := by
  have m := slopeWater_strictMono.monotoneOn
  rcases lt_trichotomy x y with h | rfl | h
  · obtain ⟨z, z1, z2, e⟩ := mean_value hx h
    have : slopeWater z ≤ slopeWater y := m ⟨by linarith, by linarith⟩ ⟨hy, hy'⟩ z2.le
    nlinarith
  · simp
  · obtain ⟨z, z1, z2, e⟩ := mean_value hy h
    have : slopeWater y ≤ slopeWater z := m ⟨hy, hy'⟩ ⟨by linarith, by linarith⟩ z1.le
    nlinarith

/-- When a contrail forms in air that is not supersaturated over water. -/
theorem forms_iff {G Tx T e : ℝ} (x1 : 123 ≤ Tx) (x2 : Tx ≤ 332) (hG : slopeWater Tx = G)
    (h1 : 123 ≤ T) (he : e ≤ satWater T) :
    ContrailForms satWater G T e ↔ T < Tx ∧ satWater Tx - G * (Tx - T) ≤ e := by
  constructor
  · rintro ⟨T', a, b, c⟩
    refine ⟨?_, ?_⟩
    · by_contra h
      obtain ⟨z, z1, z2, ez⟩ := mean_value h1 a
      have : slopeWater Tx < slopeWater z := slopeWater_strictMono ⟨x1, x2⟩
        ⟨by linarith, by linarith⟩ (by linarith)
      rw [hG] at this
      nlinarith
    · have := tangent_le (x := T') (y := Tx) (by linarith) b x1 x2
      rw [hG] at this
      linarith
  · rintro ⟨a, b⟩
    exact ⟨Tx, a, x2, by linarith⟩

/-- **C135, over water.** For mixing slopes between 0.5 and 8 Pa/K there is a temperature `Tx` below which,
and only below which, contrails form in air saturated over water; in drier air they form when the vapour
pressure is on or above the tangent. `critical_temperature_water` is within 0.1 K of `Tx`. -/
theorem C135_water (p eta : ℝ)
    (h1 : 0.5 ≤ 1.2232 * 1004 * p / (0.622 * 43e6 * (1 - eta)))
    (h2 : 1.2232 * 1004 * p / (0.622 * 43e6 * (1 - eta)) ≤ 8) :
    let G := 1.2232 * 1004 * p / (0.622 * 43e6 * (1 - eta))
    ∃ Tw Tx, criticalTemperatureWater p eta = .val Tw ∧ |Tw - Tx| < 0.1 ∧
      (∀ T, 123 ≤ T → T ≤ 332 → (ContrailForms satWater G T (satWater T) ↔ T < Tx)) ∧
      (∀ T e, 123 ≤ T → T ≤ 332 → e ≤ satWater T →
        (ContrailForms satWater G T e ↔ T < Tx ∧ satWater Tx - G * (Tx - T) ≤ e)) ∧
      (∀ T e, 123 ≤ T → T ≤ 332 → e ≤ satWater T → Tw + 0.1 ≤ T → ¬ ContrailForms satWater G T e) := by
  intro G
  obtain ⟨Tx, x1, x2, hG⟩ := exists_tangent h1 h2
  have hc : criticalTemperatureWater p eta = .val (thresholdWater G) := by
    unfold criticalTemperatureWater
    rw [slope_eq, if_pos (by linarith)]
  have hfit := fit_close x1.le x2.le
  rw [hG] at hfit
  have key := fun {T e : ℝ} => forms_iff (G := G) (Tx := Tx) (T := T) (e := e) (by linarith)
    (by linarith) hG
  refine ⟨thresholdWater G, Tx, hc, hfit, fun T t1 t2 => ?_, fun T e t1 t2 he => key t1 he,
    fun T e t1 t2 he ht hf => ?_⟩
  · rw [key t1 le_rfl]
    refine ⟨And.left, fun h => ⟨h, ?_⟩⟩
    have := tangent_le (x := T) (y := Tx) t1 t2 (by linarith) (by linarith)
    rw [hG] at this
    change satWater Tx - _ * _ ≤ satWater T
    simp only [G]
    linarith
  · have := ((key t1 he).1 hf).1
    have := (abs_lt.1 hfit).1
    simp only [G] at ht
    linarith

theorem ice_ratio {T : ℝ} (h1 : 219 ≤ T) (h2 : T ≤ 250) : satIce T < 0.85 * satWater T := by
  obtain ⟨i, hi, a, b⟩ := exists_cell (n := 438) (d := 2) (k := 62) (x := T) (by norm_num)
    (by norm_num) (by norm_num; exact h1) (by norm_num; exact h2)
  have t := of_all drier_all i hi
  have hT := has_cell a b
  simp only [drier, forceIv_eq] at t
  have := of_above t (((((has_rat 45292337 1000000).sub ((has_rat 1039955 1000).mul hT.inv)).sub
    ((has_rat 774068 100000).mul hT.log)).add ((has_rat 765032 100000000).mul hT)).add
      ((has_iTanh hT).mul (has_iB hT hT.inv hT.log)))
  have hd := exponent_diff T
  have hlt : I T < W T - 0.165 := by
    have e : W T - I T = A T + Real.tanh (0.0415 * (T - 218.8)) * B T := hd
    unfold A at e
    rw [div_eq_mul_inv] at e
    norm_num at this e ⊢
    linarith
  rw [satIce_eq, satWater_eq]
  calc Real.exp (I T) < Real.exp (W T - 0.165) := exp_lt_exp.2 hlt
    _ = Real.exp (-0.165) * Real.exp (W T) := by rw [← exp_add]; ring_nf
    _ ≤ 0.85 * Real.exp (W T) := by
      refine mul_le_mul_of_nonneg_right ?_ (exp_pos _).le
      rw [exp_neg]
      have := add_one_le_exp (0.165 : ℝ)
      have q := quadratic_le_exp_of_nonneg (x := (0.165 : ℝ)) (by norm_num)
      rw [inv_le_comm₀ (exp_pos _) (by norm_num)]
      norm_num at q ⊢
      linarith

/-- The line of the code through the fitted threshold is hardly above the tangent. -/
theorem line_above {G Tx Tw : ℝ} (x1 : 219 < Tx) (x2 : Tx < 250) (hG : slopeWater Tx = G)
    (h : |Tw - Tx| < 0.1) :
    satWater Tw - satWater Tx - G * (Tw - Tx) ≤ 0.00135 * G := by
  obtain ⟨a, b⟩ := abs_lt.1 h
  have hs : ∀ z, 123 ≤ z → z ≤ 332 → 0 < slopeWater z := fun z z1 z2 =>
    mul_pos (exp_pos _) (curvature z1 z2).1
  have hGp : 0 < G := hG ▸ hs Tx (by linarith) (by linarith)
  have m := slopeWater_strictMono.monotoneOn
  have cur : ∀ z, 218 < z → z < 251 → satWater z * (W2 z + W1 z ^ 2) ≤ 0.13 * slopeWater z := by
    intro z z1 z2
    have := (curvature (T := z) (by linarith) (by linarith)).2.2 z1 z2
    have p : 0 < satWater z := exp_pos _
    unfold slopeWater
    nlinarith
  rcases lt_trichotomy Tw Tx with h | rfl | h
  · obtain ⟨z, z1, z2, e⟩ := mean_value (x := Tw) (y := Tx) (by linarith) h
    obtain ⟨w, w1, w2, e'⟩ := mean_value_slope (x := z) (y := Tx) (by linarith) z2
    rw [hG] at e'
    have c := cur w (by linarith) (by linarith)
    have c2 : slopeWater w ≤ G := hG ▸ m ⟨by linarith, by linarith⟩ ⟨by linarith, by linarith⟩ w2.le
    have c3 : G - slopeWater z ≤ 0.013 * G := by
      rw [e']
      have k : satWater w * (W2 w + W1 w ^ 2) ≤ 0.13 * G := by linarith
      calc _ ≤ 0.13 * G * (Tx - z) := mul_le_mul_of_nonneg_right k (by linarith)
        _ ≤ 0.13 * G * 0.1 := mul_le_mul_of_nonneg_left (by linarith) (by positivity)
        _ = _ := by ring
    have : satWater Tw - satWater Tx - G * (Tw - Tx) = (G - slopeWater z) * (Tx - Tw) := by linarith
    rw [this]
    calc _ ≤ 0.013 * G * (Tx - Tw) := mul_le_mul_of_nonneg_right c3 (by linarith)
      _ ≤ 0.013 * G * 0.1 := mul_le_mul_of_nonneg_left (by linarith) (by positivity)
      _ ≤ _ := by linarith
  · simp
    positivity
  · obtain ⟨z, z1, z2, e⟩ := mean_value (x := Tx) (y := Tw) (by linarith) h
    obtain ⟨w, w1, w2, e'⟩ := mean_value_slope (x := Tx) (y := Tw) (by linarith) h
    rw [hG] at e'
    have c := cur w (by linarith) (by linarith)
    have c2 : slopeWater w ≤ slopeWater Tw :=
      m ⟨by linarith, by linarith⟩ ⟨by linarith, by linarith⟩ w2.le
    have c4 : slopeWater z ≤ slopeWater Tw :=
      m ⟨by linarith, by linarith⟩ ⟨by linarith, by linarith⟩ z2.le
    have hp := hs Tw (by linarith) (by linarith)
    have c3 : slopeWater Tw - G ≤ 0.013 * slopeWater Tw := by
      rw [e']
      have k : satWater w * (W2 w + W1 w ^ 2) ≤ 0.13 * slopeWater Tw := by linarith
      calc _ ≤ 0.13 * slopeWater Tw * (Tw - Tx) := mul_le_mul_of_nonneg_right k (by linarith)
        _ ≤ 0.13 * slopeWater Tw * 0.1 := mul_le_mul_of_nonneg_left (by linarith) (by positivity)
        _ = _ := by ring
    have c5 : slopeWater z - G ≤ 0.0135 * G := by linarith
    have : satWater Tw - satWater Tx - G * (Tw - Tx) = (slopeWater z - G) * (Tw - Tx) := by linarith
    rw [this]
    calc _ ≤ 0.0135 * G * (Tw - Tx) := mul_le_mul_of_nonneg_right c5 (by linarith)
      _ ≤ 0.0135 * G * 0.1 := mul_le_mul_of_nonneg_left (by linarith) (by positivity)
      _ = _ := by ring

/-- **C135, over ice.** In air saturated over ice, contrails form at and below the ice threshold that
`critical_temperature_water_and_ice` returns, and not from 0.01 K above it. -/
theorem C135_ice (p eta Tw Ti : ℝ)
    (h1 : 0.5 ≤ 1.2232 * 1004 * p / (0.622 * 43e6 * (1 - eta)))
    (h2 : 1.2232 * 1004 * p / (0.622 * 43e6 * (1 - eta)) ≤ 8) (hr : CriticalReturns p eta Tw Ti)
    (T : ℝ) (t1 : 123 ≤ T) (t2 : T ≤ 273.15) :
    let G := 1.2232 * 1004 * p / (0.622 * 43e6 * (1 - eta))
    (T ≤ Ti → ContrailForms satWater G T (satIce T)) ∧
      (Ti + 0.01 ≤ T → ¬ ContrailForms satWater G T (satIce T)) := by
  intro G
  obtain ⟨Tw', Ti', -, hu, i1, i2, i3, i4, i5⟩ := C85_ice_threshold p eta h1 h2
  obtain ⟨rfl, rfl⟩ := hu Tw Ti hr
  obtain ⟨Tx, x1, x2, hG⟩ := exists_tangent h1 h2
  have hc : criticalTemperatureWater p eta = .val (thresholdWater G) := by
    unfold criticalTemperatureWater
    rw [slope_eq, if_pos (by linarith)]
  have hTw : thresholdWater G = Tw := by
    have := hr.1
    rw [hc] at this
    injection this
  have hfit := fit_close x1.le x2.le
  rw [hG] at hfit
  change |thresholdWater G - Tx| < _ at hfit
  rw [hTw] at hfit
  change slopeWater Tx = G at hG
  change _ = G * (Tw - Ti) at i5
  have hG0 : 0.5 ≤ G := h1
  have conv : ∀ x y z, 100 ≤ x → x < y → y < z → z ≤ 400 →
      satIce y * (z - x) ≤ satIce x * (z - y) + satIce z * (y - x) := by
    intro x y z hx hxy hyz hz
    have d : 0 < z - x := by linarith
    have := satIce_convex.2 ⟨hx, by linarith⟩ ⟨by linarith, hz⟩
      (div_nonneg (by linarith : 0 ≤ z - y) d.le) (div_nonneg (by linarith : 0 ≤ y - x) d.le)
      (by rw [← add_div, div_eq_one_iff_eq d.ne']; ring)
    simp only [smul_eq_mul] at this
    have e : (z - y) / (z - x) * x + (y - x) / (z - x) * z = y := by field_simp; ring
    have e2 : ((z - y) / (z - x) * satIce x + (y - x) / (z - x) * satIce z) * (z - x) =
        satIce x * (z - y) + satIce z * (y - x) := by field_simp
    rw [e] at this
    rw [← e2]
    exact mul_le_mul_of_nonneg_right this d.le
  have iw : satIce Tw < satWater Tw := C44_saturation.2.2.2.1 Tw (by linarith) (by linarith)
  constructor
  · intro h
    refine ⟨Tw, by linarith, by linarith, ?_⟩
    rcases h.lt_or_eq with h | rfl
    · have := conv T Ti Tw (by linarith) h i2 (by linarith)
      have k : 0 < Tw - Ti := by linarith
      refine le_of_mul_le_mul_right ?_ k
      nlinarith
    · linarith
  · intro h hf
    have he : satIce T ≤ satWater T := (C44_saturation.2.2.2.1 T (by linarith) t2).le
    obtain ⟨a, b⟩ := (forms_iff (by linarith) (by linarith) hG t1 he).1 hf
    have hd := line_above x1 x2 hG hfit
    have hr := ice_ratio x1.le x2.le
    have c := conv Ti T Tx (by linarith) (by linarith) a (by linarith)
    have k : 0 < Tx - Ti := by linarith
    -- the ice curve is above the tangent at `Ti` by at most `0.00135 G` and below it at `Tx`
    have d1 : satIce Ti ≤ satWater Tx - G * (Tx - Ti) + 0.00135 * G := by linarith
    have w0 : 0 < satWater Tx := exp_pos _
    have s : satWater Tx * W1 Tx = G := hG
    have ti0 : 0 < satIce Ti := exp_pos _
    have d2 : G * (Tx - Ti) ≤ satWater Tx + 0.00135 * G := by linarith
    have e1 : satIce Ti * (Tx - T) ≤ (satWater Tx - G * (Tx - Ti) + 0.00135 * G) * (Tx - T) :=
      mul_le_mul_of_nonneg_right d1 (by linarith)
    have e2 : satIce Tx * (T - Ti) ≤ 0.85 * satWater Tx * (T - Ti) :=
      mul_le_mul_of_nonneg_right hr.le (by linarith)
    have e3 : (satWater Tx - G * (Tx - T)) * (Tx - Ti) ≤ satIce T * (Tx - Ti) :=
      mul_le_mul_of_nonneg_right b k.le
    have e4 : 0.15 * satWater Tx * (T - Ti) ≤ 0.00135 * (G * (Tx - T)) := by linarith
    have e5 : 0.15 * satWater Tx * 0.01 ≤ 0.15 * satWater Tx * (T - Ti) :=
      mul_le_mul_of_nonneg_left (by linarith) (by positivity)
    have e6 : G * (T - Ti) ≥ G * 0.01 := mul_le_mul_of_nonneg_left (by linarith) (by linarith)
    linarith

/-- At 250 hPa and the default efficiency there is a pair of thresholds, and a water threshold. -/
example : (∃ Tw Ti, CriticalReturns 25000 0.4 Tw Ti) ∧
    ∃ Tw, criticalTemperatureWater 25000 = .val Tw ∧ 219 < Tw := by
  obtain ⟨Tw, Ti, h, -, -, -, h4, -⟩ := C85_ice_threshold 25000 0.4 (by norm_num) (by norm_num)
  exact ⟨⟨Tw, Ti, h⟩, Tw, h.1, h4⟩

end Verif.Props
