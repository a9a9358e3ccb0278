import Verif.Lemmas.Thrust
import Verif.Lemmas.Fuel

/-!
# C34-C36: thrust
-/

namespace Verif.Props
open Verif.Thrust Verif.Aero Real

/-- Thrust parameters of an A320 with CFM56-5B4. -/
noncomputable def a320thrust : Thrust.Params ℝ := ⟨11000 / 0.3048, 5.7, 117900, 2, 0.78, 22241⟩

/-- **C34.** Take-off thrust is positive at every speed for every runway at or above sea
level (more generally up to a pressure ratio of 1.1); static sea-level thrust is the rated
thrust to within 0.1 %; thrust is proportional to rated thrust and number of engines. -/
theorem C34_takeoff_thrust (e : Thrust.Params ℝ) (hb : 0 ≤ e.bpr) (hm : 0 < e.maxThrust)
    (hn : 0 < e.number) :
    (∀ tas alt dT, pressure np (alt * 0.3048) dT ≤ 1.1 * 101325 →
      0 < Thrust.takeoff np e tas alt dT) ∧
    (∀ tas alt dT, 0 ≤ alt → 0 < Thrust.takeoff np e tas alt dT) ∧
    |Thrust.takeoff np e 0 0 0 - e.number * e.maxThrust| ≤ 0.001 * (e.number * e.maxThrust) ∧
    (∀ k m tas alt dT, Thrust.takeoff np
        ⟨e.cruiseAlt, e.bpr, k * e.maxThrust, m * e.number, e.cruiseMach, e.cruiseThrust⟩
        tas alt dT = k * m * Thrust.takeoff np e tas alt dT) := by
  have hpos : ∀ tas alt dT, pressure np (alt * 0.3048) dT ≤ 1.1 * 101325 →
      0 < Thrust.takeoff np e tas alt dT := by
    intro tas alt dT hP
    have hP0 := pressure_pos (alt * 0.3048) dT
    set x := pressure np (alt * 0.3048) dT / 101325.0 with hx
    have hx0 : 0 < x := by positivity
    have hx1 : x ≤ 1.1 := by rw [hx, div_le_iff₀ (by norm_num)]; norm_num at hP ⊢; linarith
    obtain ⟨hA, hX, hZ⟩ := poly_bound hx0 hx1
    have hG : 0 < (1.0 + 0.82 * e.bpr) * (0.0606 * e.bpr + 0.6337) := by positivity
    have hc2 : 0 < 0.23 + 0.19 * sqrt e.bpr := by positivity
    have hc : (0.377 * (1.0 + e.bpr) /
        sqrt ((1.0 + 0.82 * e.bpr) * (0.0606 * e.bpr + 0.6337))) ^ 2 ≤
        2 * (0.23 + 0.19 * sqrt e.bpr) := by
      rw [div_pow, sq_sqrt hG.le, div_le_iff₀ hG]
      have := coeff_bound (sqrt_nonneg e.bpr)
      rw [sq_sqrt hb] at this
      rw [show (1.0 : ℝ) = 1 by norm_num]
      linarith
    have := ratio_pos (M := tas2mach np (tas * 0.514444) 0.0 dT) hc2 hX hc hZ
    have hr : 0 < takeoffRatio np e (tas2mach np (tas * 0.514444) 0.0 dT) x := this
    have : Thrust.takeoff np e tas alt dT =
        takeoffRatio np e (tas2mach np (tas * 0.514444) 0.0 dT) x * e.maxThrust * e.number := rfl
    rw [this]
    positivity
  have hP00 : ∀ dT, pressure np 0 dT ≤ 1.1 * 101325 := by
    intro dT
    have h1 : density np 0 dT = 1.225 := by
      rw [density_eq]
      have : Spec.isaTemp 0 dT = 288.15 + Spec.shift dT := by
        unfold Spec.isaTemp; norm_num
      rw [this, div_self (T0s_pos dT).ne', one_rpow]
      norm_num
    have h2 : temperature np 0 dT ≤ 303.15 := by
      rw [temperature_eq]
      have := (shift_bounds dT).2
      unfold Spec.isaTemp; norm_num; linarith
    rw [pressure_eq, h1]
    nlinarith
  refine ⟨hpos, ?_, ?_, ?_⟩
  · intro tas alt dT halt
    refine hpos tas alt dT (le_trans ?_ (hP00 dT))
    exact (pressure_strictAnti dT).antitone (by positivity)
  · have hp : pressure np (0 * 0.3048) 0 / 101325.0 = 1.225 * 287.05287 * 288.15 / 101325 := by
      rw [pressure_eq, density_eq, temperature_eq]
      unfold Spec.isaTemp Spec.shift
      norm_num
    have hM : tas2mach np (0 * 0.514444) 0.0 0 = 0 := by simp [tas2mach]
    have h : Thrust.takeoff np e 0 0 0 = takeoffRatio np e (tas2mach np (0 * 0.514444) 0.0 0)
        (pressure np (0 * 0.3048) 0 / 101325.0) * e.maxThrust * e.number := rfl
    rw [h, hM, hp]
    simp only [takeoffRatio, mul_zero, ne_eq, OfNat.ofNat_ne_zero, not_false_eq_true, zero_pow]
    have hpos : 0 < e.number * e.maxThrust := by positivity
    generalize hN : e.number * e.maxThrust = N at *
    have e1 : ∀ r : ℝ, r * e.maxThrust * e.number = r * N := by intro r; rw [← hN]; ring
    rw [e1, abs_le]
    norm_num
    constructor <;> linarith
  · intro k m tas alt dT
    have h1 : ∀ F N : ℝ, Thrust.takeoff np
        ⟨e.cruiseAlt, e.bpr, F, N, e.cruiseMach, e.cruiseThrust⟩ tas alt dT =
        takeoffRatio np e (tas2mach np (tas * 0.514444) 0.0 dT)
          (pressure np (alt * 0.3048) dT / 101325.0) * F * N := fun _ _ => rfl
    have h2 : Thrust.takeoff np e tas alt dT =
        takeoffRatio np e (tas2mach np (tas * 0.514444) 0.0 dT)
          (pressure np (alt * 0.3048) dT / 101325.0) * e.maxThrust * e.number := rfl
    rw [h1, h2]
    generalize takeoffRatio np e _ _ = r
    ring

example (tas : ℝ) : 0 < Thrust.takeoff np a320thrust tas 5000 15 :=
  (C34_takeoff_thrust a320thrust (by norm_num [a320thrust]) (by norm_num [a320thrust])
    (by norm_num [a320thrust])).2.1 _ _ _ (by norm_num)

/-- **C35.** Climb thrust is continuous in altitude at 10000 ft (and everywhere below
30000 ft). -/
theorem C35_climb_continuous (e : Thrust.Params ℝ) (hM : 0 < e.cruiseMach)
    (hF : 0 < e.cruiseThrust) (hn : 0 < e.number) (tas roc dT : ℝ) :
    ContinuousAt (fun alt => climb np e tas alt roc dT) 10000 ∧
    ContinuousOn (fun alt => climb np e tas alt roc dT) (Set.Iio 30000) := by
  have hF' : e.cruiseThrust * e.number ≠ 0 := (mul_pos hF hn).ne'
  have hc : Continuous fun alt => (if alt ≤ 10000 then seg1 e tas alt roc dT
      else seg2 e tas alt roc dT) * (e.cruiseThrust * e.number) := by
    refine Continuous.mul ?_ continuous_const
    refine Continuous.if_le (continuous_seg1 e hM tas roc dT) (continuous_seg2 e hM tas roc dT)
      continuous_id continuous_const ?_
    intro x hx
    rw [hx]; exact seg1_eq_seg2 e tas roc dT
  have hon : ContinuousOn (fun alt => climb np e tas alt roc dT) (Set.Iio 30000) := by
    refine hc.continuousOn.congr ?_
    intro alt halt
    rw [Set.mem_Iio] at halt
    simp only
    rw [climb_eq e hF', if_neg (by linarith)]
    by_cases h : alt ≤ 10000
    · rw [if_neg (by linarith), if_pos h]
    · rw [if_pos (by linarith), if_neg h]
  exact ⟨hon.continuousAt (Iio_mem_nhds (by norm_num)), hon⟩

/-- **C35 (the step at 30000 ft).** Unless the reference altitude is exactly 30000 ft, at
any speed and temperature there are no two climb rates of different magnitude for which
climb thrust is continuous at 30000 ft. -/
theorem C35_step_at_30000 (e : Thrust.Params ℝ) (hM : 0 < e.cruiseMach)
    (hF : 0 < e.cruiseThrust) (hn : 0 < e.number) (hA : e.cruiseAlt ≠ 30000)
    (tas dT r1 r2 : ℝ) (hr : |r1| ≠ |r2|) :
    ¬ (ContinuousAt (fun alt => climb np e tas alt r1 dT) 30000 ∧
      ContinuousAt (fun alt => climb np e tas alt r2 dT) 30000) := by
  have hF' : e.cruiseThrust * e.number ≠ 0 := (mul_pos hF hn).ne'
  rintro ⟨c1, c2⟩
  -- above 30000 ft the rate does not matter
  have habove : ∀ alt, 30000 < alt → climb np e tas alt r1 dT = climb np e tas alt r2 dT := by
    intro alt h
    rw [climb_eq e hF', climb_eq e hF', if_pos h, if_pos h]
  have hlim : climb np e tas 30000 r1 dT = climb np e tas 30000 r2 dT := by
    have t1 := c1.tendsto.mono_left (nhdsWithin_le_nhds (s := Set.Ioi 30000))
    have t2 := c2.tendsto.mono_left (nhdsWithin_le_nhds (s := Set.Ioi 30000))
    refine tendsto_nhds_unique t1 (t2.congr' ?_)
    filter_upwards [self_mem_nhdsWithin] with alt h
    exact (habove alt h).symm
  rw [climb_eq e hF', climb_eq e hF'] at hlim
  simp only [lt_irrefl, if_false, if_pos (show (10000 : ℝ) < 30000 by norm_num)] at hlim
  have h1 := mul_right_cancel₀ hF' hlim
  unfold seg2 at h1
  have hv := vratio_pos e hM tas 30000 dT
  have h2 := mul_left_cancel₀ (rpow_pos_of_pos hv _).ne' h1
  have hp := pratio_pos e 30000 dT
  have hp1 : pratio e 30000 dT ≠ 1 := by
    unfold pratio
    rw [ne_eq, div_eq_one_iff_eq (pressure_pos _ _).ne']
    intro h
    have := (pressure_strictAnti dT).injective h
    apply hA
    have h3 : (30000 : ℝ) * 0.3048 = e.cruiseAlt * 0.3048 := this
    linarith
  have h3 := congrArg log h2
  rw [log_rpow hp, log_rpow hp] at h3
  have hl : log (pratio e 30000 dT) ≠ 0 := log_ne_zero_of_pos_of_ne_one hp hp1
  have h4 := mul_right_cancel₀ hl h3
  unfold nfunc at h4
  apply hr
  linarith

example : ¬ (ContinuousAt (fun alt => climb np a320thrust 400 alt 0 0) 30000 ∧
    ContinuousAt (fun alt => climb np a320thrust 400 alt 1000 0) 30000) :=
  C35_step_at_30000 a320thrust (by norm_num [a320thrust]) (by norm_num [a320thrust])
    (by norm_num [a320thrust]) (by norm_num [a320thrust]) 400 0 0 1000 (by norm_num)

/-- **C36.** Symmetries of climb, cruise and idle thrust. -/
theorem C36_climb_symmetries (e : Thrust.Params ℝ) :
    (∀ tas alt roc dT, climb np e tas alt (-roc) dT = climb np e tas alt roc dT) ∧
    (∀ tas alt roc dT, tas ≤ 10 → climb np e tas alt roc dT = climb np e 10 alt roc dT) ∧
    (∀ tas alt dT, cruise np e tas alt dT = climb np e tas alt 0 dT) ∧
    (0 < e.cruiseMach → e.cruiseThrust * e.number ≠ 0 → 10000 < e.cruiseAlt →
      ∀ tas roc dT, 10 ≤ tas →
        tas * 0.514444 / vsound np (e.cruiseAlt * 0.3048) dT = e.cruiseMach →
        climb np e tas e.cruiseAlt roc dT = e.cruiseThrust * e.number) ∧
    (∀ tas alt dT, descentIdle np e tas alt dT = 7 / 100 * Thrust.takeoff np e tas alt dT) := by
  refine ⟨?_, ?_, ?_, ?_, ?_⟩
  · intro tas alt roc dT
    simp only [climb]
    have : np.abs (-roc) = np.abs roc := abs_neg roc
    rw [this]
  · intro tas alt roc dT h
    have h1 : np.maximum 10.0 tas = np.maximum 10.0 10 := by
      simp only [np]
      rw [max_eq_left (by norm_num; linarith), max_eq_left (by norm_num)]
    simp only [climb]
    rw [h1]
  · intro tas alt dT
    simp only [cruise]
    norm_num
  · intro hM hF hA tas roc dT ht hmach
    have ht' : max 10 tas = tas := max_eq_right ht
    have hp : pratio e e.cruiseAlt dT = 1 := div_self (pressure_pos _ _).ne'
    have hm : mratio e tas e.cruiseAlt dT = 1 := by
      unfold mratio tas2mach
      rw [ht', hmach, div_self hM.ne']
    have hv : vratio e tas e.cruiseAlt dT = 1 := by
      have h1 := vratio_pos e hM tas e.cruiseAlt dT
      unfold vratio at h1 ⊢
      rw [ht'] at h1 ⊢
      have h2 : mach2tas np e.cruiseMach (e.cruiseAlt * 0.3048) dT = tas * 0.514444 := by
        unfold mach2tas
        rw [← hmach, div_mul_cancel₀ _ (vsound_pos _ _).ne']
      unfold mach2cas at h1 ⊢
      rw [h2] at h1 ⊢
      exact div_self fun h0 => by rw [h0, div_zero] at h1; exact lt_irrefl 0 h1
    rw [climb_eq e hF]
    split_ifs
    · unfold seg3
      rw [hp, hm, log_one, one_rpow]; ring
    · unfold seg2
      rw [hp, hv, one_rpow, one_rpow]; ring
  · intro tas alt dT
    simp only [descentIdle]
    norm_num

end Verif.Props
