import Verif.Props.Crossover
import Verif.Lemmas.AirspeedOrder
import Verif.Lemmas.GenFrame

/-!
# Speeds along a climb and a descent

Below the crossover altitude a calibrated airspeed bounds the Mach number, above it the Mach
number bounds the calibrated airspeed; slowing down by 0.2 m/s each second keeps the calibrated
airspeed from rising while descending.
-/

namespace Verif.Gen
open Verif Verif.Aero Verif.Spec Verif.Comp Verif.Props

theorem tas2cas_le_iff {v h c : ℝ} (hv : 0 ≤ c) : tas2cas np v h 0 ≤ c ↔
    impactPressure (pressure np h 0) (density np h 0) v ≤ impactPressure 101325 1.225 c := by
  obtain ⟨n, e⟩ := tas2cas_spec v h 0
  rw [← e, impact_le_iff (by norm_num) (by norm_num) n hv]

theorem tas_impact (v h : ℝ) : impactPressure (pressure np h 0) (density np h 0) v =
    pressure np h 0 * F (0.2 * tas2mach np v h 0 ^ 2) := by
  rw [← impact_mach]
  simp only [tas2mach]
  rw [div_mul_cancel₀ _ (vsound_pos h 0).ne']

theorem tas2mach_nonneg {v : ℝ} (hv : 0 ≤ v) (h : ℝ) : 0 ≤ tas2mach np v h 0 := by
  simp only [tas2mach]
  have := vsound_pos h 0
  positivity

/-- Below the crossover altitude. -/
theorem mach_of_cas {v h c m : ℝ} (hv : 0 ≤ v) (hc : 0 < c) (hm : 1e-4 ≤ m)
    (h0 : 0 ≤ crossoverAlt np c m 0) (h1 : crossoverAlt np c m 0 ≤ 11000)
    (hh : h ≤ crossoverAlt np c m 0) (hcas : tas2cas np v h 0 ≤ c) :
    tas2mach np v h 0 ≤ 1.0002 * m := by
  have h12 := C12_crossover_consistent c m hc hm h0 h1
  have hM := (abs_le.1 h12).2
  have key : tas2mach np v h 0 ≤ cas2mach np c (crossoverAlt np c m 0) 0 := by
    generalize crossoverAlt np c m 0 = H at *
    have e1 := (tas2cas_le_iff hc.le).1 hcas
    have e2 : impactPressure 101325 1.225 c = pressure np H 0 * F (0.2 * cas2mach np c H 0 ^ 2) := by
      rw [← (cas2tas_spec c H 0).2, tas_impact]
      rfl
    rw [tas_impact, e2] at e1
    have hp : pressure np H 0 ≤ pressure np h 0 := (pressure_strictAnti 0).antitone hh
    have pH := pressure_pos H 0
    have n1 := tas2mach_nonneg hv h
    have n2 : 0 ≤ cas2mach np c H 0 := tas2mach_nonneg (cas2tas_spec c H 0).1 H
    have f1 : 0 ≤ F (0.2 * tas2mach np v h 0 ^ 2) := F_nonneg (by positivity)
    have e3 : pressure np H 0 * F (0.2 * tas2mach np v h 0 ^ 2) ≤
        pressure np H 0 * F (0.2 * cas2mach np c H 0 ^ 2) :=
      (mul_le_mul_of_nonneg_right hp f1).trans e1
    have e4 := (F_le_iff (by positivity) (by positivity)).1 (le_of_mul_le_mul_left e3 pH)
    exact le_of_sq_le_sq (by linarith) n2
  linarith

/-- Above the crossover altitude. -/
theorem cas_of_mach {v h c m : ℝ} (hv : 0 ≤ v) (hc : 0 < c) (hm : 1e-4 ≤ m)
    (h0 : 0 ≤ crossoverAlt np c m 0) (h1 : crossoverAlt np c m 0 ≤ 11000)
    (hh : crossoverAlt np c m 0 ≤ h) (hmach : tas2mach np v h 0 ≤ m) :
    tas2cas np v h 0 ≤ 1.00001 * c := by
  have hm0 : 0 < m := lt_of_lt_of_le (by norm_num) hm
  have eH := crossover_eq (v := c) 0 hm
  obtain ⟨H, hH⟩ : ∃ H, H = crossoverAlt np c m 0 := ⟨_, rfl⟩
  rw [← hH] at h0 h1 hh eH
  rw [tas2cas_le_iff (by positivity), tas_impact]
  have hd0 := crossDelta_pos hc hm0
  have ha := aExp_pos
  obtain ⟨x, hx⟩ : ∃ x, x = (288.15 - 0.0065 * H) / 288.15 := ⟨_, rfl⟩
  have hx0 : 0.7518 ≤ x := by rw [hx, le_div_iff₀ (by norm_num)]; linarith
  have hx1 : x ≤ 1 := by rw [hx, div_le_iff₀ (by norm_num)]; linarith
  have hxp : 0 < x := by linarith
  have hxd : x = crossDelta c m ^ aExp := by rw [hx, eH]; field_simp; ring
  have hdx : crossDelta c m = x ^ (1 / aExp) := by
    rw [hxd, ← Real.rpow_mul hd0.le, mul_one_div_cancel ha.ne', Real.rpow_one]
  have hxE : x ^ (5.256848030018761 : ℝ) ≤ crossDelta c m := by
    rw [hdx]
    exact Real.rpow_le_rpow_of_exponent_ge hxp hx1 (by unfold aExp; norm_num)
  have hp : pressure np h 0 ≤ pressure np H 0 := (pressure_strictAnti 0).antitone hh
  have hpH : pressure np H 0 ≤ 101325 * crossDelta c m := by
    rw [pressure_trop h1, ← hx]
    exact mul_le_mul (by unfold K; norm_num) hxE (by positivity) (by norm_num)
  have n1 := tas2mach_nonneg hv h
  have f1 : F (0.2 * tas2mach np v h 0 ^ 2) ≤ F (0.2 * m ^ 2) := F_mono (by positivity) (by gcongr)
  have hF := F_pos (u := 0.2 * m ^ 2) (by positivity)
  have f0 : 0 ≤ F (0.2 * tas2mach np v h 0 ^ 2) := F_nonneg (by positivity)
  calc pressure np h 0 * F (0.2 * tas2mach np v h 0 ^ 2)
      ≤ (101325 * crossDelta c m) * F (0.2 * m ^ 2) :=
        mul_le_mul (hp.trans hpH) f1 f0 (by positivity)
    _ = 101325 * F (0.2 * (c / 340.293988) ^ 2) := by
        unfold crossDelta; field_simp
    _ ≤ 101325 * F (1.225 * (1.00001 * c) ^ 2 / (7 * 101325)) := by
        refine mul_le_mul_of_nonneg_left (F_mono (by positivity) ?_) (by norm_num)
        have : 0 < c ^ 2 := by positivity
        have e1 : 0.2 * (c / 340.293988) ^ 2 = (0.2 / 340.293988 ^ 2) * c ^ 2 := by ring
        have e2 : 1.225 * (1.00001 * c) ^ 2 / (7 * 101325) =
          (1.225 * 1.00001 ^ 2 / (7 * 101325)) * c ^ 2 := by ring
        rw [e1, e2]
        refine mul_le_mul_of_nonneg_right ?_ this.le
        norm_num
    _ = impactPressure 101325 1.225 (1.00001 * c) := (impact_eq _ _ _).symm

/-- Calibrated airspeed hardly exceeds true airspeed above sea level. -/
theorem cas_le_tas {v h : ℝ} (hv : 0 ≤ v) (hh : 0 ≤ h) : tas2cas np v h 0 ≤ 1.00001 * v := by
  rw [tas2cas_le_iff (by positivity)]
  rcases hv.eq_or_lt with rfl | hv0
  · rw [mul_zero, impact_zero, impact_zero]
  refine ((impact_strictAnti 0 hv0).antitone hh).trans ?_
  have e0 : isaTemp 0 0 = 288.15 := by simp only [isaTemp, shift_zero]; norm_num
  have ed : density np 0 0 = 1.225 := by
    rw [density_eq, e0, shift_zero, max_eq_left (by norm_num), neg_zero, zero_div, Real.exp_zero,
      add_zero, div_self (by norm_num), Real.one_rpow, mul_one, mul_one]
  have ep : pressure np 0 0 = K := by
    rw [pressure_eq, ed, temperature_eq, e0]; unfold K; ring
  rw [ed, ep, impact_eq, impact_eq]
  have hK : (101324.998 : ℝ) ≤ K := by unfold K; norm_num
  have hK2 : K ≤ 101325 := by unfold K; norm_num
  have hu : 1.225 * v ^ 2 / (7 * K) ≤ 1.225 * (1.00001 * v) ^ 2 / (7 * 101325) := by
    rw [div_le_div_iff₀ (by linarith) (by norm_num)]
    have : 0 < v ^ 2 := by positivity
    nlinarith
  exact mul_le_mul hK2 (F_mono (by have : 0 < K := by linarith
                                   positivity) hu) (F_nonneg (by
    have : 0 < K := by linarith
    positivity)) (by norm_num)

/-- Impact pressure in terms of density and temperature. -/
theorem impact_density (v h : ℝ) : impactPressure (pressure np h 0) (density np h 0) v =
    density np h 0 * 287.05287 * isaTemp h 0 * F (v ^ 2 / (7 * 287.05287) / isaTemp h 0) := by
  have := density_pos h 0
  have := temp_pos h 0
  rw [impact_eq, pressure_eq, temperature_eq]
  congr 2
  field_simp

theorem temp_lower0 (h : ℝ) : 216.65 ≤ isaTemp h 0 := by
  simp only [isaTemp, shift_zero]
  split_ifs <;> linarith

/-- Warmer, slower and of less dynamic pressure. -/
theorem cas_le_of {v v' h h' : ℝ} (hv' : 0 ≤ v') (hv : v' ≤ v) (hh : h' ≤ h)
    (hq : density np h' 0 * v' ^ 2 ≤ density np h 0 * v ^ 2) :
    tas2cas np v' h' 0 ≤ tas2cas np v h 0 := by
  obtain ⟨n, e⟩ := tas2cas_spec v h 0
  rw [tas2cas_le_iff n, e, impact_density, impact_density]
  have t' : isaTemp h 0 ≤ isaTemp h' 0 := temp_anti 0 hh
  have t1 := temp_pos h 0
  have d1 := density_pos h 0
  have d2 := density_pos h' 0
  rcases hv'.eq_or_lt with rfl | hv0
  · rw [show (0:ℝ) ^ 2 / (7 * 287.05287) / isaTemp h' 0 = 0 by norm_num, F_zero, mul_zero]
    have : 0 ≤ F (v ^ 2 / (7 * 287.05287) / isaTemp h 0) := F_nonneg (by positivity)
    positivity
  have t2 : 0 < isaTemp h' 0 := t1.trans_le t'
  have hvp : 0 < v := hv0.trans_le hv
  generalize isaTemp h 0 = T at *
  generalize isaTemp h' 0 = T' at *
  generalize density np h 0 = r at *
  generalize density np h' 0 = r' at *
  have hl : 1 ≤ (v ^ 2 * T') / (v' ^ 2 * T) := by
    rw [one_le_div (by positivity)]
    have : v' ^ 2 ≤ v ^ 2 := by gcongr
    exact mul_le_mul this t' t1.le (by positivity)
  have hs := F_scale_ge hl (u := v' ^ 2 / (7 * 287.05287) / T') (by positivity)
  have eu : (v ^ 2 * T') / (v' ^ 2 * T) * (v' ^ 2 / (7 * 287.05287) / T') =
      v ^ 2 / (7 * 287.05287) / T := by field_simp
  rw [eu] at hs
  have f1 : 0 ≤ F (v' ^ 2 / (7 * 287.05287) / T') := F_nonneg (by positivity)
  generalize F (v' ^ 2 / (7 * 287.05287) / T') = f' at *
  generalize F (v ^ 2 / (7 * 287.05287) / T) = f at *
  calc r' * 287.05287 * T' * f' = (r' * v' ^ 2) * (287.05287 * T' * f' / v' ^ 2) := by field_simp
    _ ≤ (r * v ^ 2) * (287.05287 * T' * f' / v' ^ 2) := by gcongr
    _ = r * 287.05287 * T * ((v ^ 2 * T') / (v' ^ 2 * T) * f') := by field_simp
    _ ≤ _ := by gcongr

/-- One step of slowing down, for a density that grows by at most `exp a`. -/
theorem slowing {v v' d a r r' : ℝ} (hv : 0 < v) (hr : 0 < r)
    (hv' : 0 ≤ v') (hle : v' ≤ v - 0.2 * d) (hr' : r' ≤ r * Real.exp a) (ha : a * v ≤ 0.4 * d) :
    r' * v' ^ 2 ≤ r * v ^ 2 := by
  have e1 : v' ≤ v * Real.exp (-(0.2 * d / v)) := by
    have := Real.add_one_le_exp (-(0.2 * d / v))
    have h2 := mul_le_mul_of_nonneg_left this hv.le
    have e : v * (-(0.2 * d / v) + 1) = v - 0.2 * d := by field_simp; ring
    linarith
  have e2 : v' ^ 2 ≤ v ^ 2 * Real.exp (-(0.4 * d / v)) := by
    have := pow_le_pow_left₀ hv' e1 2
    rw [mul_pow, ← Real.exp_nat_mul] at this
    refine this.trans (le_of_eq ?_)
    congr 2
    push_cast
    ring
  calc r' * v' ^ 2 ≤ r * Real.exp a * (v ^ 2 * Real.exp (-(0.4 * d / v))) := by
        exact mul_le_mul hr' e2 (by positivity) (by positivity)
    _ = r * v ^ 2 * Real.exp (a - 0.4 * d / v) := by
        rw [sub_eq_add_neg, Real.exp_add]; ring
    _ ≤ r * v ^ 2 * 1 := by
        refine mul_le_mul_of_nonneg_left (Real.exp_le_one_iff.2 ?_) (by positivity)
        rw [sub_nonpos, le_div_iff₀ hv]
        exact ha
    _ = _ := mul_one _

/-- Growth of density in the troposphere. -/
theorem density_growth {h h' : ℝ} (hh : h' ≤ h) (h1 : h ≤ 11000) :
    density np h' 0 ≤ density np h 0 * Real.exp (0.02767 * (h - h') / isaTemp h 0) := by
  have e : ∀ y ≤ (11000:ℝ), density np y 0 =
      1.225 * (isaTemp y 0 / 288.15) ^ (4.256848030018761 : ℝ) ∧
        isaTemp y 0 = 288.15 - 0.0065 * y := by
    intro y hy
    rw [density_eq, max_eq_left (by linarith), shift_zero, neg_zero, zero_div, Real.exp_zero,
      mul_one, add_zero]
    refine ⟨rfl, ?_⟩
    simp only [isaTemp, if_pos hy, shift_zero, add_zero]
  obtain ⟨e1, t1⟩ := e h h1
  obtain ⟨e2, t2⟩ := e h' (hh.trans h1)
  have p1 := temp_lower0 h
  have p2 := temp_lower0 h'
  rw [e1, e2]
  have ht : isaTemp h' 0 - isaTemp h 0 = 0.0065 * (h - h') := by rw [t1, t2]; ring
  generalize isaTemp h 0 = T at *
  generalize isaTemp h' 0 = T' at *
  have hT : 0 < T := by linarith
  have hT' : 0 < T' := by linarith
  have es : T' / 288.15 = T / 288.15 * (T' / T) := by field_simp
  rw [es, Real.mul_rpow (by positivity) (by positivity), ← mul_assoc]
  refine mul_le_mul_of_nonneg_left ?_ (by positivity)
  rw [Real.rpow_def_of_pos (by positivity)]
  refine Real.exp_le_exp.2 ?_
  have hl := Real.log_le_sub_one_of_pos (x := T' / T) (by positivity)
  have e3 : T' / T - 1 = 0.0065 * (h - h') / T := by rw [← ht]; field_simp
  rw [e3] at hl
  have : 0 ≤ (h - h') / T := div_nonneg (by linarith) hT.le
  calc Real.log (T' / T) * 4.256848030018761 ≤ 0.0065 * (h - h') / T * 4.256848030018761 := by
        gcongr
    _ = (0.0065 * 4.256848030018761) * ((h - h') / T) := by ring
    _ ≤ 0.02767 * ((h - h') / T) := by gcongr; norm_num
    _ = _ := by ring

/-- Growth of density anywhere. -/
theorem density_growth' {h h' : ℝ} (hh : h' ≤ h) :
    density np h' 0 ≤ density np h 0 * Real.exp ((h - h') / 6341.552161) := by
  have trop : ∀ a b : ℝ, a ≤ b → b ≤ 11000 →
      density np a 0 ≤ density np b 0 * Real.exp ((b - a) / 6341.552161) := by
    intro a b hab hb
    refine (density_growth hab hb).trans ?_
    refine mul_le_mul_of_nonneg_left (Real.exp_le_exp.2 ?_) (density_pos b 0).le
    have := temp_lower0 b
    rw [div_le_div_iff₀ (by linarith) (by norm_num)]
    nlinarith
  have strat : ∀ a b : ℝ, a ≤ b → 11000 ≤ a →
      density np a 0 = density np b 0 * Real.exp ((b - a) / 6341.552161) := by
    intro a b hab ha
    have t : ∀ y, 11000 ≤ y → isaTemp y 0 = 216.65 := by
      intro y hy
      simp only [isaTemp, shift_zero]; split_ifs <;> linarith
    rw [density_eq, density_eq, max_eq_right (by linarith), max_eq_right (by linarith), t a ha,
      t b (ha.trans hab), mul_assoc _ (Real.exp _) (Real.exp _), ← Real.exp_add]
    congr 2
    ring
  rcases le_total h 11000 with c | c
  · exact trop _ _ hh c
  · rcases le_total 11000 h' with c' | c'
    · exact (strat _ _ hh c').le
    · have a1 := trop h' 11000 c' le_rfl
      rw [strat 11000 h c le_rfl, mul_assoc, ← Real.exp_add] at a1
      refine a1.trans (le_of_eq ?_)
      congr 2
      ring

/-- Speed of sound squared. -/
theorem vsound_sq (h : ℝ) : vsound np h 0 ^ 2 = 401.874018 * isaTemp h 0 := by
  rw [vsound_eq, Real.sq_sqrt]
  have := temp_pos h 0
  positivity

/-- Slowing down while descending below the tropopause. -/
theorem slow_step {v v' h h' d w m : ℝ} (hd : 0 ≤ d) (hv' : 0 ≤ v')
    (hv : v' ≤ v - 0.2 * d) (hh : h' ≤ h) (hw : h - w * d ≤ h') (h1 : h ≤ 11000) (hw0 : 0 ≤ w)
    (hm : tas2mach np v h 0 ≤ 1.0002 * m) (hwm : w * m ≤ 10.5) :
    tas2cas np v' h' 0 ≤ tas2cas np v h 0 := by
  have hle : v' ≤ v := by linarith [mul_nonneg (show (0:ℝ) ≤ 0.2 by norm_num) hd]
  rcases (hv'.trans hle).eq_or_lt with h0 | hv0
  · have : v' = 0 := le_antisymm (by linarith) hv'
    rw [this, ← h0] at *
    refine cas_le_of le_rfl le_rfl hh ?_
    norm_num
  refine cas_le_of hv' hle hh (slowing hv0 (density_pos h 0) hv' hv (density_growth hh h1) ?_)
  have hT := temp_lower0 h
  have hs := vsound_sq h
  have hp := vsound_pos h 0
  have hsl := vsound_lower h
  have hvm : v ≤ 1.0002 * m * vsound np h 0 := by
    simp only [tas2mach] at hm
    rwa [div_le_iff₀ hp] at hm
  generalize vsound np h 0 = a at *
  generalize isaTemp h 0 = T at *
  have hT0 : 0 < T := by linarith
  rw [div_mul_eq_mul_div, div_le_iff₀ hT0]
  -- 0.02767 (h - h') v ≤ 0.4 d T
  have s1 : (h - h') * v ≤ w * d * v := by
    refine mul_le_mul_of_nonneg_right (by linarith) hv0.le
  have s2 : w * d * v ≤ w * d * (1.0002 * m * a) :=
    mul_le_mul_of_nonneg_left hvm (by positivity)
  have s3 : w * d * (1.0002 * m * a) = 1.0002 * (w * m) * (d * a) := by ring
  have s4 : 1.0002 * (w * m) * (d * a) ≤ 1.0002 * 10.5 * (d * a) := by gcongr
  have s5 : 0.02767 * (1.0002 * 10.5) * a ≤ 0.4 * T := by
    have : T = a ^ 2 / 401.874018 := by rw [hs]; field_simp
    rw [this]
    rw [show 0.4 * (a ^ 2 / 401.874018) = (0.4 / 401.874018 * a) * a by ring]
    refine mul_le_mul_of_nonneg_right ?_ hp.le
    have : (0.4 / 401.874018 : ℝ) * 295 ≤ 0.4 / 401.874018 * a := by gcongr
    refine le_trans ?_ this
    norm_num
  have s6 := mul_le_mul_of_nonneg_left s5 hd
  nlinarith

/-- Slowing down while descending more slowly, at any altitude above sea level. -/
theorem slow_step' {v v' h h' d w m : ℝ} (hd : 0 ≤ d) (hv' : 0 ≤ v')
    (hv : v' ≤ v - 0.2 * d) (hh : h' ≤ h) (hw : h - w * d ≤ h') (h0 : 0 ≤ h) (hw0 : 0 ≤ w)
    (hm : tas2mach np v h 0 ≤ 1.0002 * m) (hwm : w * m ≤ 7.4) :
    tas2cas np v' h' 0 ≤ tas2cas np v h 0 := by
  have hle : v' ≤ v := by linarith [mul_nonneg (show (0:ℝ) ≤ 0.2 by norm_num) hd]
  rcases (hv'.trans hle).eq_or_lt with e0 | hv0
  · have : v' = 0 := le_antisymm (by linarith) hv'
    rw [this, ← e0] at *
    refine cas_le_of le_rfl le_rfl hh ?_
    norm_num
  refine cas_le_of hv' hle hh (slowing hv0 (density_pos h 0) hv' hv (density_growth' hh) ?_)
  have hs := vsound_sq h
  have hp := vsound_pos h 0
  have hT : isaTemp h 0 ≤ 288.15 := by
    simp only [isaTemp, shift_zero]
    split_ifs <;> linarith
  have ha : vsound np h 0 ≤ 340.3 := by
    refine le_of_sq_le_sq ?_ (by norm_num)
    rw [hs]
    nlinarith
  have hvm : v ≤ 1.0002 * m * vsound np h 0 := by
    simp only [tas2mach] at hm
    rwa [div_le_iff₀ hp] at hm
  generalize vsound np h 0 = a at *
  have s1 : (h - h') * v ≤ w * d * v := by
    refine mul_le_mul_of_nonneg_right (by linarith) hv0.le
  have s2 : w * d * v ≤ w * d * (1.0002 * m * a) :=
    mul_le_mul_of_nonneg_left hvm (by positivity)
  have s3 : w * d * (1.0002 * m * a) = 1.0002 * (w * m) * (d * a) := by ring
  have s4 : 1.0002 * (w * m) * (d * a) ≤ 1.0002 * 7.4 * (d * a) := by gcongr
  have s5 : 1.0002 * 7.4 * (d * a) ≤ 1.0002 * 7.4 * (d * 340.3) := by gcongr
  rw [div_mul_eq_mul_div, div_le_iff₀ (by norm_num)]
  nlinarith

/-- Slowing down or keeping speed while descending lowers the Mach number. -/
theorem mach_step {v v' h h' m : ℝ} (hv : v' ≤ v) (hv0 : 0 ≤ v) (hh : h' ≤ h)
    (hm : tas2mach np v h 0 ≤ m) : tas2mach np v' h' 0 ≤ m := by
  refine le_trans ?_ hm
  simp only [tas2mach]
  have h1 := vsound_pos h 0
  have h2 := vsound_pos h' 0
  have h3 : vsound np h 0 ≤ vsound np h' 0 := by
    rw [vsound_eq, vsound_eq]
    have := temp_anti 0 hh
    simp only at this
    gcongr
  calc v' / vsound np h' 0 ≤ v / vsound np h' 0 := by gcongr
    _ ≤ _ := by gcongr

end Verif.Gen
