import Verif.Lemmas.Contrail

/-!
# C43-C48, C85: contrail formation and forcing
-/

namespace Verif.Props
open Verif Verif.Contrail Real

/-- **C43.** Converting relative humidity over water to ice gives the relative humidity over ice
of the same air; both are proportional to humidity and pressure, with saturation exactly when the
vapour pressure `q p 461.51 / 287.05` equals the saturation pressure; any other reference phase
is rejected. -/
theorem C43_humidity (q p T : ℝ) :
    (∀ w, relativeHumidity q p T "water" = .ok w →
      relativeHumidity q p T "ice" = .ok (rhw2rhi w T)) ∧
    (∀ phase, (∃ k, 0 < k ∧ ∀ q p, relativeHumidity q p T phase = .ok (k * (q * p))) ↔
      phase = "ice" ∨ phase = "water") ∧
    (relativeHumidity q p T "ice" = .ok 1 ↔ q * p * (461.51 / 287.05) = satIce T) ∧
    (relativeHumidity q p T "water" = .ok 1 ↔ q * p * (461.51 / 287.05) = satWater T) ∧
    (∀ phase, phase ≠ "ice" → phase ≠ "water" →
      relativeHumidity q p T phase = .error .assertionError) := by
  have hw : 0 < satWater T := exp_pos _
  have hi : 0 < satIce T := exp_pos _
  have ei : ∀ q p, relativeHumidity q p T "ice" = .ok (q * p * (461.51 / 287.05) / satIce T) := by
    intro q p
    simp [relativeHumidity, gasConstantWaterVapor, gasConstantDryAir]
  have ew : ∀ q p, relativeHumidity q p T "water" =
      .ok (q * p * (461.51 / 287.05) / satWater T) := by
    intro q p
    simp [relativeHumidity, gasConstantWaterVapor, gasConstantDryAir]
  have en : ∀ q p phase, phase ≠ "ice" → phase ≠ "water" →
      relativeHumidity q p T phase = .error .assertionError := by
    intro q p phase h1 h2
    simp [relativeHumidity, h1, h2]
  refine ⟨?_, ?_, ?_, ?_, en q p⟩
  · intro w h
    rw [ew, Except.ok.injEq] at h
    rw [ei, ← h, Except.ok.injEq, rhw2rhi, div_mul_cancel₀ _ hw.ne']
  · intro phase
    constructor
    · rintro ⟨k, _, h⟩
      by_contra hc
      push Not at hc
      have := h q p
      rw [en q p phase hc.1 hc.2] at this
      cases this
    · rintro (rfl | rfl)
      · refine ⟨461.51 / 287.05 / satIce T, by positivity, fun q p => ?_⟩
        rw [ei, Except.ok.injEq]
        ring
      · refine ⟨461.51 / 287.05 / satWater T, by positivity, fun q p => ?_⟩
        rw [ew, Except.ok.injEq]
        ring
  · rw [ei, Except.ok.injEq, div_eq_one_iff_eq hi.ne']
  · rw [ew, Except.ok.injEq, div_eq_one_iff_eq hw.ne']

/-- **C44.** Saturation pressure over ice is positive and strictly increasing up to 1161 K, over
water positive and strictly increasing on its published range 123 K to 332 K; ice saturation
lies strictly below water saturation from 110 K to 273.15 K and strictly above from 273.2 K to
332 K, so the curves cross between. -/
theorem C44_saturation :
    (∀ T, 0 < satIce T ∧ 0 < satWater T) ∧
    StrictMonoOn satIce (Set.Ioc 0 1161) ∧
    StrictMonoOn satWater (Set.Icc 123 332) ∧
    (∀ T, 110 ≤ T → T ≤ 273.15 → satIce T < satWater T) ∧
    (∀ T, 273.2 ≤ T → T ≤ 332 → satWater T < satIce T) := by
  have hd : ∀ T, W T - I T = A T + tanh (0.0415 * (T - 218.8)) * B T := exponent_diff
  refine ⟨fun T => ⟨exp_pos _, exp_pos _⟩, ?_, ?_, ?_, ?_⟩
  · intro x hx y hy hxy
    exact exp_lt_exp.2 (I_strictMono hx hy hxy)
  · intro x hx y hy hxy
    exact exp_lt_exp.2 (W_strictMono hx hy hxy)
  · intro T h1 h2
    refine exp_lt_exp.2 (?_ : I T < W T)
    have := diff_pos h1 h2
    linarith [hd T]
  · intro T h1 h2
    refine exp_lt_exp.2 (?_ : W T < I T)
    have := diff_neg h1 h2
    linarith [hd T]

/-- Threshold as a function of the logarithm is increasing above -6.5486. -/
theorem threshold_lt {g g' : ℝ} (h : 0.0545 ≤ g) (hg : g < g') :
    thresholdWater g < thresholdWater g' := by
  have h0 : 0 < g - 0.053 := by linarith
  have hl : log (g - 0.053) < log (g' - 0.053) := log_lt_log h0 (by linarith)
  have hb : -6.51 ≤ log (g - 0.053) := by
    have h1 : log (0.0015:ℝ) ≤ log (g - 0.053) := log_le_log (by norm_num) (by linarith)
    have h2 : log (0.0015:ℝ) = log 3 - 4 * log 2 - 3 * log 5 + log 1 := by
      rw [show (0.0015:ℝ) = 3 / (2 ^ 4 * 5 ^ 3) by norm_num, log_div (by norm_num) (by norm_num),
        log_mul (by norm_num) (by norm_num), log_pow, log_pow, log_one]
      push_cast
      ring
    rw [log_one] at h2
    obtain ⟨_, _, _, _, _, _⟩ := log_bounds
    linarith
  unfold thresholdWater
  generalize log (g - 0.053) = x at hl hb
  generalize log (g' - 0.053) = y at hl
  nlinarith

theorem slope_eq (p eta : ℝ) :
    mixingSlope p eta = 1.2232 * 1004 * p / (0.622 * 43e6 * (1 - eta)) := by
  unfold mixingSlope eiWater specAirHeatCapacity ratioMassWaterVaporAir specCombustionHeat
  rfl

/-- **C45.** The water-saturation critical temperature is a number exactly when the mixing slope
`G = 1.2232 · 1004 · p / (0.622 · 43e6 · (1 - η))` exceeds 0.053 Pa/K. From `G = 0.0545` on it
strictly increases with pressure and with efficiency; below `G = 0.0544` it strictly
decreases. -/
theorem C45_threshold :
    (∀ p eta, (∃ t, criticalTemperatureWater p eta = .val t) ↔
      0.053 < 1.2232 * 1004 * p / (0.622 * 43e6 * (1 - eta))) ∧
    (∀ p p' eta, eta < 1 → p < p' →
      0.0545 ≤ 1.2232 * 1004 * p / (0.622 * 43e6 * (1 - eta)) →
      ∃ t t', criticalTemperatureWater p eta = .val t ∧
        criticalTemperatureWater p' eta = .val t' ∧ t < t') ∧
    (∀ p eta eta', eta < eta' → eta' < 1 →
      0.0545 ≤ 1.2232 * 1004 * p / (0.622 * 43e6 * (1 - eta)) →
      ∃ t t', criticalTemperatureWater p eta = .val t ∧
        criticalTemperatureWater p eta' = .val t' ∧ t < t') ∧
    (∀ p p' eta, eta < 1 → p < p' →
      0.053 < 1.2232 * 1004 * p / (0.622 * 43e6 * (1 - eta)) →
      1.2232 * 1004 * p' / (0.622 * 43e6 * (1 - eta)) ≤ 0.0544 →
      ∃ t t', criticalTemperatureWater p eta = .val t ∧
        criticalTemperatureWater p' eta = .val t' ∧ t' < t) := by
  have hval : ∀ p eta, 0.053 < mixingSlope p eta →
      criticalTemperatureWater p eta = .val (thresholdWater (mixingSlope p eta)) := by
    intro p eta h
    unfold criticalTemperatureWater
    rw [if_pos (by linarith)]
  have hp : ∀ p p' eta : ℝ, eta < 1 → p < p' → mixingSlope p eta < mixingSlope p' eta := by
    intro p p' eta h1 h2
    rw [slope_eq, slope_eq]
    have : 0 < 1 - eta := by linarith
    gcongr
  refine ⟨?_, ?_, ?_, ?_⟩
  · intro p eta
    rw [← slope_eq]
    constructor
    · rintro ⟨t, h⟩
      unfold criticalTemperatureWater at h
      split_ifs at h with hc
      linarith
    · intro h
      exact ⟨_, hval p eta h⟩
  · intro p p' eta h1 h2 h3
    rw [← slope_eq] at h3
    have := hp p p' eta h1 h2
    exact ⟨_, _, hval p eta (by linarith), hval p' eta (by linarith), threshold_lt h3 this⟩
  · intro p eta eta' h1 h2 h3
    rw [← slope_eq] at h3
    have hpos : 0 < p := by
      by_contra hc
      push Not at hc
      have : mixingSlope p eta ≤ 0 := by
        rw [slope_eq]
        refine div_nonpos_of_nonpos_of_nonneg (by nlinarith) ?_
        have : 0 ≤ 1 - eta := by linarith
        positivity
      linarith
    have hlt : mixingSlope p eta < mixingSlope p eta' := by
      rw [slope_eq, slope_eq]
      have : 0 < 1 - eta' := by linarith
      gcongr
    exact ⟨_, _, hval p eta (by linarith), hval p eta' (by linarith), threshold_lt h3 hlt⟩
  · intro p p' eta h1 h2 h3 h4
    rw [← slope_eq] at h3 h4
    have hlt := hp p p' eta h1 h2
    refine ⟨_, _, hval p eta (by linarith), hval p' eta (by linarith), ?_⟩
    have hl : log (mixingSlope p eta - 0.053) < log (mixingSlope p' eta - 0.053) :=
      log_lt_log (by linarith) (by linarith)
    have hb : log (mixingSlope p' eta - 0.053) ≤ -6.55 := by
      have h1 : log (mixingSlope p' eta - 0.053) ≤ log (0.0014:ℝ) :=
        log_le_log (by linarith) (by linarith)
      have h2 := log_le_tangent (c := 0.00140625) (T := 0.0014) (by norm_num) (by norm_num)
      have h3 : log (0.00140625:ℝ) = 2 * log 3 - 8 * log 2 - 2 * log 5 := by
        rw [show (0.00140625:ℝ) = 3 ^ 2 / (2 ^ 8 * 5 ^ 2) by norm_num,
          log_div (by norm_num) (by norm_num), log_mul (by norm_num) (by norm_num),
          log_pow, log_pow, log_pow]
        push_cast
        ring
      obtain ⟨_, _, _, _, _, _⟩ := log_bounds
      norm_num at h2 h1 h3 ⊢
      linarith
    unfold thresholdWater
    generalize log (mixingSlope p eta - 0.053) = x at hl
    generalize log (mixingSlope p' eta - 0.053) = y at hl hb
    nlinarith

/-- At 250 hPa with the default efficiency the slope is well inside the increasing range. -/
example : (0.0545:ℝ) ≤ 1.2232 * 1004 * 25000 / (0.622 * 43e6 * (1 - 0.4)) := by norm_num

/-- Reflectance factor as a function of the effective optical depth. -/
theorem reflectance_strictMono (F : ℝ) (h1 : -1 ≤ F) (h2 : F ≤ 3) :
    StrictMonoOn (fun x => (1 - exp (-0.242 * x)) * (0.709 + 0.361 * exp (-0.323 * x) * F))
      (Set.Ici 0) := by
  have hd : ∀ x : ℝ, HasDerivAt
      (fun x => (1 - exp (-0.242 * x)) * (0.709 + 0.361 * exp (-0.323 * x) * F))
      (0.242 * exp (-0.242 * x) * (0.709 + 0.361 * exp (-0.323 * x) * F) +
        (1 - exp (-0.242 * x)) * (0.361 * (-0.323 * exp (-0.323 * x)) * F)) x := by
    intro x
    have e1 : HasDerivAt (fun x : ℝ => exp (-0.242 * x)) (exp (-0.242 * x) * (-0.242 * 1)) x :=
      ((hasDerivAt_id' x).const_mul (-0.242)).exp
    have e2 : HasDerivAt (fun x : ℝ => exp (-0.323 * x)) (exp (-0.323 * x) * (-0.323 * 1)) x :=
      ((hasDerivAt_id' x).const_mul (-0.323)).exp
    have := (e1.const_sub 1).mul (((e2.const_mul 0.361).mul_const F).const_add 0.709)
    convert! this using 1
    ring
  refine strictMonoOn_of_deriv_pos (convex_Ici 0)
    (fun x _ => (hd x).continuousAt.continuousWithinAt) (fun x hx => ?_)
  rw [interior_Ici, Set.mem_Ioi] at hx
  rw [(hd x).deriv]
  have hw : exp (-0.323 * x) = exp (-0.242 * x) * exp (-0.081 * x) := by
    rw [← exp_add]
    congr 1
    ring
  have hv : exp (-0.081 * x) ^ 3 ≤ exp (-0.242 * x) := by
    rw [← exp_nat_mul]
    apply exp_le_exp.2
    push_cast
    linarith
  have hv0 := exp_pos (-0.081 * x)
  have hu0 := exp_pos (-0.242 * x)
  have hv1 : exp (-0.081 * x) ≤ 1 := exp_le_one_iff.2 (by linarith)
  have hu1 : exp (-0.242 * x) ≤ 1 := exp_le_one_iff.2 (by linarith)
  rw [hw]
  generalize exp (-0.081 * x) = v at *
  generalize exp (-0.242 * x) = u at *
  have e : 0.242 * u * (0.709 + 0.361 * (u * v) * F) +
      (1 - u) * (0.361 * (-0.323 * (u * v)) * F) =
      u * (0.171578 + 0.361 * F * (v * (0.565 * u - 0.323))) := by ring
  rw [e]
  refine mul_pos hu0 ?_
  have hq : -0.127 ≤ v * (0.565 * u - 0.323) := by
    have h3 : v * (0.565 * v ^ 3 - 0.323) ≤ v * (0.565 * u - 0.323) := by gcongr
    have h4 : -0.127 ≤ v * (0.565 * v ^ 3 - 0.323) := by
      nlinarith [sq_nonneg (v ^ 2 - 0.27), sq_nonneg (v - 0.52)]
    linarith
  have hq2 : v * (0.565 * u - 0.323) ≤ 0.242 := by nlinarith
  generalize v * (0.565 * u - 0.323) = r at *
  rcases le_total F 0 with hF | hF
  · nlinarith
  · nlinarith

/-- **C45 (default efficiency).** Without an efficiency argument 0.4 is used: the threshold is a
number for the pressure 693 Pa and for none below 692 Pa. -/
theorem C45_default (p : ℝ) :
    criticalTemperatureWater p = criticalTemperatureWater p 0.4 ∧
    (693 ≤ p → ∃ t, criticalTemperatureWater p = .val t) ∧
    (p ≤ 692 → criticalTemperatureWater p = .nan) := by
  refine ⟨rfl, fun h => (C45_threshold.1 p 0.4).2 ?_, fun h => ?_⟩
  · rw [lt_div_iff₀ (by norm_num)]
    linarith
  · rcases hc : criticalTemperatureWater p with _ | t
    · rfl
    · have := (C45_threshold.1 p 0.4).1 ⟨t, hc⟩
      rw [lt_div_iff₀ (by norm_num)] at this
      linarith

/-- **C46.** By day (zenith angle in (-90, 90) degrees) shortwave forcing is 0 for zero optical
depth, strictly negative for positive optical depth and strictly decreasing in it; for zenith
angles above 90 degrees it is exactly 0. -/
theorem C46_shortwave :
    (∀ z tau_c, -90 < z → z < 90 → StrictAntiOn (fun tau => rfShortwave z tau tau_c) (Set.Ici 0)) ∧
    (∀ z tau tau_c, -90 < z → z < 90 → 0 < tau → rfShortwave z tau tau_c < 0) ∧
    (∀ z tau_c, rfShortwave z 0 tau_c = 0) ∧
    (∀ z tau tau_c, 90 < z → rfShortwave z tau tau_c = 0) := by
  have zero : ∀ z tau_c, rfShortwave z 0 tau_c = 0 := by
    intro z tau_c
    simp [rfShortwave]
  have anti : ∀ z tau_c, -90 < z → z < 90 →
      StrictAntiOn (fun tau => rfShortwave z tau tau_c) (Set.Ici 0) := by
    intro z tau_c h1 h2
    have hmu : 0 < cos (z * (π / 180)) := by
      have := pi_pos
      apply cos_pos_of_mem_Ioo
      constructor <;> nlinarith
    have hmu1 : cos (z * (π / 180)) ≤ 1 := cos_le_one _
    have hF : 0 < 1 - 0.512 * (1 - exp (-0.15 * 16)) := by
      have := exp_pos (-0.15 * 16)
      linarith
    have hr0 : 0 ≤ (1 - cos (z * (π / 180))) ^ (1.676:ℝ) / (1 / 2) ^ (1.676:ℝ) := by
      have : 0 ≤ 1 - cos (z * (π / 180)) := by linarith
      positivity
    have hr4 : (1 - cos (z * (π / 180))) ^ (1.676:ℝ) / (1 / 2) ^ (1.676:ℝ) ≤ 4 := by
      rw [div_le_iff₀ (by positivity)]
      have a1 : (1 - cos (z * (π / 180))) ^ (1.676:ℝ) ≤ 1 :=
        rpow_le_one (by linarith) (by linarith) (by norm_num)
      have a2 : ((1:ℝ) / 2) ^ (2:ℝ) ≤ (1 / 2) ^ (1.676:ℝ) :=
        rpow_le_rpow_of_exponent_ge (by norm_num) (by norm_num) (by norm_num)
      rw [show (2:ℝ) = ((2:ℕ):ℝ) by norm_num, rpow_natCast] at a2
      push_cast at a2
      linarith
    have mono := reflectance_strictMono
      ((1 - cos (z * (π / 180))) ^ (1.676:ℝ) / (1 / 2) ^ (1.676:ℝ) - 1) (by linarith) (by linarith)
    intro t ht t' ht' htt
    have hx : t * (1 - 0.512 * (1 - exp (-0.15 * 16))) / cos (z * (π / 180)) <
        t' * (1 - 0.512 * (1 - exp (-0.15 * 16))) / cos (z * (π / 180)) := by gcongr
    have key := mono (a := t * (1 - 0.512 * (1 - exp (-0.15 * 16))) / cos (z * (π / 180)))
      (b := t' * (1 - 0.512 * (1 - exp (-0.15 * 16))) / cos (z * (π / 180)))
      (by
        rw [Set.mem_Ici] at ht ⊢
        positivity)
      (by
        rw [Set.mem_Ici] at ht' ⊢
        positivity) hx
    simp only [rfShortwave]
    rw [if_neg (by linarith), if_neg (by linarith)]
    have hE := exp_pos (0.157 * tau_c -
      0.23 * (tau_c * (1 - 0.512 * (1 - exp (-0.15 * 16))) / cos (z * (π / 180))))
    have hk : 0 < cos (z * (π / 180)) * 1361 * (0.879 - 0.2) ^ 2 *
        exp (0.157 * tau_c -
          0.23 * (tau_c * (1 - 0.512 * (1 - exp (-0.15 * 16))) / cos (z * (π / 180)))) := by
      have : (0:ℝ) < (0.879 - 0.2) ^ 2 := by norm_num
      positivity
    have := mul_lt_mul_of_pos_left key hk
    simp only at this
    linarith
  refine ⟨anti, ?_, zero, ?_⟩
  · intro z tau tau_c h1 h2 h3
    have := anti z tau_c h1 h2 (Set.mem_Ici.2 le_rfl) (Set.mem_Ici.2 h3.le) h3
    simpa only [zero] using this
  · intro z tau tau_c h
    simp only [rfShortwave]
    rw [if_pos h]

/-- **C47.** Longwave forcing is never negative, non-decreasing in OLR and non-increasing in
temperature, and follows `OLR - 1.935 (T - 152)` where that is positive; net forcing is the sum,
so it is never negative at night and equals the longwave forcing then. -/
theorem C47_longwave :
    (∀ olr T, 0 ≤ rfLongwave olr T) ∧
    (∀ T, Monotone fun olr => rfLongwave olr T) ∧
    (∀ olr, Antitone fun T => rfLongwave olr T) ∧
    (∀ olr T, 1.935 * (T - 152) ≤ olr → rfLongwave olr T = olr - 1.935 * (T - 152)) ∧
    (∀ olr T, olr ≤ 1.935 * (T - 152) → rfLongwave olr T = 0) ∧
    (∀ z tau tau_c olr T, rfNet z tau tau_c olr T = rfShortwave z tau tau_c + rfLongwave olr T) ∧
    (∀ z tau tau_c olr T, 90 < z → 0 ≤ rfNet z tau tau_c olr T ∧
      rfNet z tau tau_c olr T = rfLongwave olr T) := by
  have nn : ∀ olr T, 0 ≤ rfLongwave olr T := fun olr T => le_max_right _ _
  refine ⟨nn, ?_, ?_, ?_, ?_, fun _ _ _ _ _ => rfl, ?_⟩
  · intro T a b h
    simp only [rfLongwave]
    gcongr
  · intro olr a b h
    simp only [rfLongwave]
    gcongr
  · intro olr T h
    unfold rfLongwave
    exact max_eq_left (by linarith)
  · intro olr T h
    unfold rfLongwave
    exact max_eq_right (by linarith)
  · intro z tau tau_c olr T h
    unfold rfNet
    rw [C46_shortwave.2.2.2 z tau tau_c h, zero_add]
    exact ⟨nn _ _, rfl⟩

/-- **C48.** The optical properties on every real age are those of the documented table, with
each bin closed on the left and open on the right (negative ages fall in the first bin and `nan`
in the last). -/
theorem C48_optical_table (x : ℝ) :
    (x < 1 → opticalProperties (.val x) = (0.40, 500, 0.360)) ∧
    (1 ≤ x → x < 2 → opticalProperties (.val x) = (0.60, 1500, 0.540)) ∧
    (2 ≤ x → x < 4 → opticalProperties (.val x) = (0.68, 3500, 0.612)) ∧
    (4 ≤ x → x < 6 → opticalProperties (.val x) = (0.70, 6500, 0.630)) ∧
    (6 ≤ x → opticalProperties (.val x) = (0.71, 10500, 0.639)) ∧
    opticalProperties .nan = (0.71, 10500, 0.639) := by
  refine ⟨?_, ?_, ?_, ?_, ?_, ?_⟩
  · intro h
    simp [opticalProperties, searchsortedRight, List.takeWhile, not_le.2 h]
    norm_num
  · intro h1 h2
    simp [opticalProperties, searchsortedRight, List.takeWhile, h1, not_le.2 h2]
    norm_num
  · intro h1 h2
    simp [opticalProperties, searchsortedRight, List.takeWhile, h1, not_le.2 h2,
      (by linarith : (1:ℝ) ≤ x)]
  · intro h1 h2
    simp [opticalProperties, searchsortedRight, List.takeWhile, h1, not_le.2 h2,
      (by linarith : (1:ℝ) ≤ x), (by linarith : (2:ℝ) ≤ x)]
    norm_num
  · intro h1
    simp [opticalProperties, searchsortedRight, List.takeWhile, h1,
      (by linarith : (1:ℝ) ≤ x), (by linarith : (2:ℝ) ≤ x), (by linarith : (4:ℝ) ≤ x)]
  · simp [opticalProperties, searchsortedRight]

/-- **C48.** All three properties are non-decreasing in age and cirrus depth is 0.9 times the
optical depth. -/
theorem C48_optical_monotone :
    (∀ x y, x ≤ y → (opticalProperties (.val x)).1 ≤ (opticalProperties (.val y)).1 ∧
      (opticalProperties (.val x)).2.1 ≤ (opticalProperties (.val y)).2.1 ∧
      (opticalProperties (.val x)).2.2 ≤ (opticalProperties (.val y)).2.2) ∧
    (∀ x, (opticalProperties (.val x)).2.2 = 0.9 * (opticalProperties (.val x)).1) := by
  have cases : ∀ x : ℝ, x < 1 ∨ (1 ≤ x ∧ x < 2) ∨ (2 ≤ x ∧ x < 4) ∨ (4 ≤ x ∧ x < 6) ∨ 6 ≤ x := by
    intro x
    by_cases h1 : x < 1
    · exact .inl h1
    by_cases h2 : x < 2
    · exact .inr (.inl ⟨not_lt.1 h1, h2⟩)
    by_cases h3 : x < 4
    · exact .inr (.inr (.inl ⟨not_lt.1 h2, h3⟩))
    by_cases h4 : x < 6
    · exact .inr (.inr (.inr (.inl ⟨not_lt.1 h3, h4⟩)))
    · exact .inr (.inr (.inr (.inr (not_lt.1 h4))))
  have val := fun x => C48_optical_table x
  constructor
  · intro x y hxy
    obtain ⟨a1, a2, a3, a4, a5, _⟩ := val x
    obtain ⟨b1, b2, b3, b4, b5, _⟩ := val y
    rcases cases x with h | ⟨h, h'⟩ | ⟨h, h'⟩ | ⟨h, h'⟩ | h <;>
    rcases cases y with k | ⟨k, k'⟩ | ⟨k, k'⟩ | ⟨k, k'⟩ | k
    all_goals first
      | (exfalso; linarith)
      | (simp only [*]; norm_num)
  · intro x
    obtain ⟨a1, a2, a3, a4, a5, _⟩ := val x
    rcases cases x with h | ⟨h, h'⟩ | ⟨h, h'⟩ | ⟨h, h'⟩ | h
    · rw [a1 h]; norm_num
    · rw [a2 h h']; norm_num
    · rw [a3 h h']; norm_num
    · rw [a4 h h']; norm_num
    · rw [a5 h]; norm_num

theorem threshold_range {g : ℝ} (h1 : 0.5 ≤ g) (h2 : g ≤ 8) :
    219 < thresholdWater g ∧ thresholdWater g < 250 ∧ (g ≤ 2 → thresholdWater g < 235) := by
  obtain ⟨l1, l2, l3, l4, _, _⟩ := log_bounds
  have lo : -0.811 ≤ log (g - 0.053) := by
    have a : log ((2:ℝ) ^ 2 / 3 ^ 2) ≤ log (g - 0.053) :=
      log_le_log (by norm_num) (by linarith)
    rw [log_div (by norm_num) (by norm_num), log_pow, log_pow] at a
    push_cast at a
    linarith
  have hi : log (g - 0.053) ≤ 2.0795 := by
    have a : log (g - 0.053) ≤ log ((2:ℝ) ^ 3) := log_le_log (by linarith) (by linarith)
    rw [log_pow] at a
    push_cast at a
    linarith
  have hi2 : g ≤ 2 → log (g - 0.053) ≤ 0.6932 := by
    intro hg
    have a : log (g - 0.053) ≤ log 2 := log_le_log (by linarith) (by linarith)
    linarith
  unfold thresholdWater
  generalize log (g - 0.053) = x at *
  refine ⟨by nlinarith, by nlinarith, fun hg => ?_⟩
  have := hi2 hg
  nlinarith

theorem satWater_le {T c : ℝ} (h1 : 218.8 ≤ T) (h2 : T ≤ 332)
    (hc : 54.842763 - 6763.22 / T - 4.210 * log T + 0.000367 * T ≤ c) : satWater T ≤ exp c := by
  refine exp_le_exp.2 ?_
  have hB := B_neg (T := T) (by linarith) (by linarith)
  have ht : 0 ≤ tanh (0.0415 * (T - 218.8)) := by
    have := le_tanh (x := 0.0415 * (T - 218.8)) (y := 1) (by norm_num)
      (one_le_exp (by linarith))
    norm_num at this ⊢
    exact this
  have := mul_nonpos_of_nonneg_of_nonpos ht hB.le
  unfold B at this
  linarith

theorem satWater_bounds {T : ℝ} (h1 : 219 ≤ T) :
    (T ≤ 250 → satWater T < 150) ∧ (T ≤ 235 → satWater T < 59) := by
  have hT : 0 < T := by linarith
  have hl := tangent_le_log (c := 250) (by norm_num) hT
  have h250 := log_250.1
  have e5 : exp 5 < 150 := by
    rw [show (5:ℝ) = ((5:ℕ):ℝ) * 1 by norm_num, exp_nat_mul]
    have := exp_one_lt_d9
    calc exp 1 ^ 5 ≤ 2.7182818286 ^ 5 := by gcongr
      _ < 150 := by norm_num
  have e4 : exp 4 < 59 := by
    rw [show (4:ℝ) = ((4:ℕ):ℝ) * 1 by norm_num, exp_nat_mul]
    have := exp_one_lt_d9
    calc exp 1 ^ 4 ≤ 2.7182818286 ^ 4 := by gcongr
      _ < 59 := by norm_num
  have key : ∀ u c : ℝ, T ≤ u → u ≤ 250 →
      54.842763 - (6763.22 - 4.21 * 250) / u - 4.21 * 6.5214609 + 0.000367 * u ≤ c →
      54.842763 - 6763.22 / T - 4.210 * log T + 0.000367 * T ≤ c := by
    intro u c h h' hc
    have hu : 0 < u := by linarith
    have a : (6763.22 - 4.21 * 250) / u ≤ (6763.22 - 4.21 * 250) / T := by
      have : (0:ℝ) < 6763.22 - 4.21 * 250 := by norm_num
      gcongr
    have b : (6763.22 - 4.21 * 250) / T = 6763.22 / T - 4.21 * (250 / T) := by ring
    rw [b] at a
    linarith
  constructor
  · intro h
    refine lt_of_le_of_lt (satWater_le (by linarith) (by linarith) (key 250 5 h le_rfl ?_)) e5
    norm_num
  · intro h
    refine lt_of_le_of_lt
      (satWater_le (by linarith) (by linarith) (key 235 4 h (by norm_num) ?_)) e4
    norm_num

/-- **C85.** Whenever the mixing slope is between 0.5 and 8 Pa/K (110 hPa to sea level at
efficiencies up to 0.4), the root search of the ice threshold is well posed: the bracket has a
sign change and contains exactly one root, so the returned ice threshold does not depend on the
solver; it lies strictly below the water threshold, on the mixing line through it. -/
theorem C85_ice_threshold (p eta : ℝ)
    (h1 : 0.5 ≤ 1.2232 * 1004 * p / (0.622 * 43e6 * (1 - eta)))
    (h2 : 1.2232 * 1004 * p / (0.622 * 43e6 * (1 - eta)) ≤ 8) :
    ∃ Tw Ti, CriticalReturns p eta Tw Ti ∧
      (∀ Tw' Ti', CriticalReturns p eta Tw' Ti' → Tw' = Tw ∧ Ti' = Ti) ∧
      100 < Ti ∧ Ti < Tw ∧ 219 < Tw ∧ Tw < 250 ∧
      satWater Tw - satIce Ti =
        1.2232 * 1004 * p / (0.622 * 43e6 * (1 - eta)) * (Tw - Ti) := by
  rw [← slope_eq] at h1 h2 ⊢
  have hcrit : criticalTemperatureWater p eta = .val (thresholdWater (mixingSlope p eta)) := by
    unfold criticalTemperatureWater
    rw [if_pos (by linarith)]
  obtain ⟨r1, r2, r3⟩ := threshold_range h1 h2
  generalize hg : mixingSlope p eta = g at *
  generalize hTw : thresholdWater g = Tw at *
  have fTw : 0 < iceFunc Tw Tw g := by
    have : satIce Tw < satWater Tw := C44_saturation.2.2.2.1 Tw (by linarith) (by linarith)
    unfold iceFunc
    linarith
  have f100 : iceFunc 100 Tw g < 0 := by
    have hp : 0 < satIce 100 := exp_pos _
    obtain ⟨b1, b2⟩ := satWater_bounds r1.le
    unfold iceFunc
    rcases le_total g 2 with h | h
    · have := b2 (r3 h).le
      nlinarith
    · have := b1 r2.le
      nlinarith
  have hcont : ContinuousOn (fun t => iceFunc t Tw g) (Set.Icc 100 Tw) := by
    intro x hx
    have h : ContinuousAt satIce x := (hasDerivAt_satIce (by linarith [hx.1])).continuousAt
    unfold iceFunc
    exact ((continuousAt_const.sub h).sub
      ((continuousAt_const.sub continuousAt_id).mul continuousAt_const)).continuousWithinAt
  have hconc : ∀ x y t, x ∈ Set.Icc (100:ℝ) 400 → y ∈ Set.Icc (100:ℝ) 400 → 0 ≤ t → t ≤ 1 →
      (1 - t) * iceFunc x Tw g + t * iceFunc y Tw g ≤ iceFunc ((1 - t) * x + t * y) Tw g := by
    intro x y t hx hy h0 h1
    have := satIce_convex.2 hx hy (sub_nonneg.2 h1) h0 (by ring)
    simp only [smul_eq_mul] at this
    unfold iceFunc
    linarith
  obtain ⟨Ti, hTi, hroot⟩ : ∃ Ti ∈ Set.Icc 100 Tw, iceFunc Ti Tw g = 0 := by
    have := intermediate_value_Icc (by linarith : (100:ℝ) ≤ Tw) hcont
    obtain ⟨x, hx, hx'⟩ := this ⟨f100.le, fTw.le⟩
    exact ⟨x, hx, hx'⟩
  have uniq : ∀ x y, x ∈ Set.Icc 100 Tw → y ∈ Set.Icc 100 Tw → iceFunc x Tw g = 0 →
      iceFunc y Tw g = 0 → ¬ x < y := by
    intro x y hx hy h0 h0' hlt
    have hyT : y < Tw := by
      refine lt_of_le_of_ne hy.2 ?_
      rintro rfl
      linarith
    have hd : 0 < Tw - x := by linarith
    have hc := hconc x Tw ((y - x) / (Tw - x)) ⟨hx.1, by linarith [hx.2]⟩
      ⟨by linarith, by linarith⟩ (div_nonneg (by linarith) hd.le)
      ((div_le_one hd).2 (by linarith))
    have e : (1 - (y - x) / (Tw - x)) * x + (y - x) / (Tw - x) * Tw = y := by
      field_simp
      ring
    rw [e, h0, h0', mul_zero, zero_add] at hc
    have : 0 < (y - x) / (Tw - x) * iceFunc Tw Tw g := by
      have : 0 < (y - x) / (Tw - x) := div_pos (by linarith) hd
      positivity
    linarith
  have hle : (100:ℝ) ≤ Tw := by linarith
  refine ⟨Tw, Ti, ⟨hcrit, ?_, ?_, ?_⟩, ?_, ?_, ?_, r1, r2, ?_⟩
  · rw [hg]
    exact mul_nonpos_of_nonpos_of_nonneg f100.le fTw.le
  · rw [Set.uIcc_of_le hle]
    exact hTi
  · rw [hg]
    exact hroot
  · rintro Tw' Ti' ⟨hc, -, hm, hr⟩
    rw [hcrit] at hc
    injection hc with hc
    subst hc
    rw [Set.uIcc_of_le hle] at hm
    rw [hg] at hr
    refine ⟨rfl, ?_⟩
    exact le_antisymm (not_lt.1 (uniq Ti Ti' hTi hm hroot hr))
      (not_lt.1 (uniq Ti' Ti hm hTi hr hroot))
  · refine lt_of_le_of_ne hTi.1 ?_
    rintro rfl
    linarith
  · refine lt_of_le_of_ne hTi.2 ?_
    rintro rfl
    linarith
  · unfold iceFunc at hroot
    linarith

/-- 250 hPa at the default efficiency meets the hypotheses. -/
example : (0.5:ℝ) ≤ 1.2232 * 1004 * 25000 / (0.622 * 43e6 * (1 - 0.4)) ∧
    1.2232 * 1004 * 25000 / (0.622 * 43e6 * (1 - 0.4)) ≤ (8:ℝ) := by norm_num

end Verif.Props
