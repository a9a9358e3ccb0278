import Verif.Lemmas.Drag
import Mathlib.Analysis.Real.Pi.Bounds

/-!
# C24-C27: drag
-/

namespace Verif.Props
open Verif.Drag Verif.Aero Real

/-- An airframe and polar with the A320's numbers. -/
noncomputable def a320 : Airframe ℝ := ⟨124, 35.8, 25, none, 78000, false⟩
noncomputable def a320polar : Polar ℝ := ⟨0.018, 0.039, 0.9, 0.176, 0.17⟩

/-- **C24.** Clean drag is the parabolic polar `cd0 q S + k L² / (q S)` with a floor on
`q S`; it is positive and at least `2 √(cd0 k) L`, at every speed including zero. -/
theorem C24_drag_positive (ac : Airframe ℝ) (pol : Polar ℝ) (h0 : 0 < pol.cd0) (hk : 0 < pol.k)
    (mass tas alt dT : ℝ) (hm : 0 < mass) :
    (∀ vs, clean np ac pol false mass tas alt vs dT =
      let q := max (1 / 2 * density np (alt * 0.3048) dT * (tas * 0.514444) ^ 2 * ac.area) 0.001
      let w := vs * 0.00508
      let v := tas * 0.514444
      let L := mass * 9.80665 * (if v = 0 ∧ w = 0 then 1 else v / sqrt (v ^ 2 + w ^ 2))
      pol.cd0 * q + pol.k * L ^ 2 / q) ∧
    (∀ wave vs, 0 < clean np ac pol wave mass tas alt vs dT) ∧
    (∀ wave, 2 * sqrt (pol.cd0 * pol.k) * (mass * 9.80665) ≤
      clean np ac pol wave mass tas alt 0 dT) ∧
    (∀ wave vs, tas ≠ 0 → 2 * sqrt (pol.cd0 * pol.k) * (mass * 9.80665 *
        (|tas * 0.514444| / sqrt ((tas * 0.514444) ^ 2 + (vs * 0.00508) ^ 2))) ≤
      clean np ac pol wave mass tas alt vs dT) := by
  have hq := qS_pos ac tas alt dT
  have hgen : ∀ wave vs, pol.cd0 * qS ac tas alt dT +
      pol.k * lift mass tas vs ^ 2 / qS ac tas alt dT ≤
        clean np ac pol wave mass tas alt vs dT := by
    intro wave vs
    simp only [clean]
    rw [calcDrag_eq]
    cases wave
    · simp only [Bool.false_eq_true, if_false]
      norm_num
    · simp only [if_true]
      have := waveDrag_nonneg ac mass tas alt dT
      nlinarith
  refine ⟨?_, ?_, ?_, ?_⟩
  · intro vs
    have e1 : (1 / 2 : ℝ) = 0.5 := by norm_num
    have e2 : (0.001 : ℝ) = 1e-3 := by norm_num
    simp only [clean, Bool.false_eq_true, if_false]
    rw [calcDrag_eq, e1, e2]
    have e3 : (if tas * 0.514444 = 0 ∧ vs * 0.00508 = 0 then (1 : ℝ) else
        tas * 0.514444 / sqrt ((tas * 0.514444) ^ 2 + (vs * 0.00508) ^ 2)) =
        cos (atan2R (vs * 0.00508) (tas * 0.514444)) := by
      split_ifs with h
      · have : atan2R (vs * 0.00508) (tas * 0.514444) = 0 := by
          rw [h.1, h.2]; exact Complex.arg_zero
        rw [this, cos_zero]
      · rw [cos_atan2_eq]; tauto
    rw [e3, show (0.0 : ℝ) = 0 by norm_num, add_zero]
    rfl
  · intro wave vs
    refine lt_of_lt_of_le ?_ (hgen wave vs)
    have : 0 ≤ pol.k * lift mass tas vs ^ 2 / qS ac tas alt dT := by positivity
    have : 0 < pol.cd0 * qS ac tas alt dT := by positivity
    linarith
  · intro wave
    refine le_trans ?_ (hgen wave 0)
    have h := amgm h0.le hk.le hq (lift mass tas 0)
    have e : |lift mass tas 0| = mass * 9.80665 := by
      rw [← abs_of_pos (show 0 < mass * 9.80665 by positivity), ← sq_eq_sq_iff_abs_eq_abs,
        lift_level_sq]
    rwa [e] at h
  · intro wave vs ht
    refine le_trans ?_ (hgen wave vs)
    have h := amgm h0.le hk.le hq (lift mass tas vs)
    have e : |lift mass tas vs| = mass * 9.80665 *
        (|tas * 0.514444| / sqrt ((tas * 0.514444) ^ 2 + (vs * 0.00508) ^ 2)) := by
      unfold lift
      rw [cos_atan2_eq _ _ (Or.inl (mul_ne_zero ht (by norm_num))), abs_mul, abs_div,
        abs_of_pos (show 0 < mass * 9.80665 by positivity), abs_of_nonneg (sqrt_nonneg _)]
    rwa [e] at h

/-- An A320 of 60 t in level flight never has less than 31 kN of drag. -/
example (tas alt dT : ℝ) : 31000 ≤ clean np a320 a320polar false 60000 tas alt 0 dT := by
  have h := (C24_drag_positive a320 a320polar (by norm_num [a320polar]) (by norm_num [a320polar])
    60000 tas alt dT (by norm_num)).2.2.1 false
  refine le_trans ?_ h
  have : 0.02645 ≤ sqrt (a320polar.cd0 * a320polar.k) :=
    le_sqrt_of_sq_le (by norm_num [a320polar])
  nlinarith

/-- **C25.** Drag strictly grows with mass, is even in the vertical rate, and is largest in
level flight. -/
theorem C25_drag_mass (ac : Airframe ℝ) (pol : Polar ℝ) (hk : 0 < pol.k) (tas alt dT : ℝ) :
    (∀ m1 m2 vs, 0 ≤ m1 → m1 < m2 → (tas ≠ 0 ∨ vs = 0) →
      clean np ac pol false m1 tas alt vs dT < clean np ac pol false m2 tas alt vs dT) ∧
    (∀ m1 m2 vs, 0 ≤ m1 → m1 < m2 → (0 < tas ∨ (tas = 0 ∧ vs = 0)) → -90 < ac.sweep →
      ac.sweep < 90 →
      clean np ac pol true m1 tas alt vs dT < clean np ac pol true m2 tas alt vs dT) ∧
    (∀ m1 m2 vs flap gear, 0 ≤ m1 → m1 < m2 → (tas ≠ 0 ∨ vs = 0) → 0 < ac.area → 0 ≤ flap →
      nonclean np ac pol m1 tas alt flap vs dT gear <
        nonclean np ac pol m2 tas alt flap vs dT gear) ∧
    (∀ wave m vs, clean np ac pol wave m tas alt (-vs) dT =
      clean np ac pol wave m tas alt vs dT) ∧
    (∀ m vs flap gear, nonclean np ac pol m tas alt flap (-vs) dT gear =
      nonclean np ac pol m tas alt flap vs dT gear) ∧
    (∀ wave m vs, clean np ac pol wave m tas alt vs dT ≤
      clean np ac pol wave m tas alt 0 dT) := by
  have hq := qS_pos ac tas alt dT
  have hlift : ∀ m1 m2 vs, 0 ≤ m1 → m1 < m2 → (tas ≠ 0 ∨ vs = 0) →
      lift m1 tas vs ^ 2 < lift m2 tas vs ^ 2 := by
    intro m1 m2 vs h0 h12 hv
    rw [lift_scale m1, lift_scale m2, mul_pow, mul_pow]
    have := sq_pos_of_ne_zero (lift_one_ne tas vs hv)
    have : m1 ^ 2 < m2 ^ 2 := by nlinarith
    nlinarith
  have hcalc : ∀ m1 m2 vs c1 c2 k, 0 < k → 0 ≤ m1 → m1 < m2 → (tas ≠ 0 ∨ vs = 0) → c1 ≤ c2 →
      calcDrag np ac m1 tas alt c1 k vs dT < calcDrag np ac m2 tas alt c2 k vs dT := by
    intro m1 m2 vs c1 c2 k hk h0 h12 hv hc
    rw [calcDrag_eq, calcDrag_eq]
    have h1 := hlift m1 m2 vs h0 h12 hv
    have h2 : k * lift m1 tas vs ^ 2 / qS ac tas alt dT <
        k * lift m2 tas vs ^ 2 / qS ac tas alt dT := by
      apply div_lt_div_of_pos_right _ hq
      nlinarith
    nlinarith
  refine ⟨?_, ?_, ?_, ?_, ?_, ?_⟩
  · intro m1 m2 vs h0 h12 hv
    exact hcalc m1 m2 vs _ _ _ hk h0 h12 hv le_rfl
  · intro m1 m2 vs h0 h12 hv hs1 hs2
    have hp := pi_pos
    refine hcalc m1 m2 vs _ _ _ hk h0 h12 (hv.imp (fun h => h.ne') (fun h => h.2)) ?_
    simp only [if_true]
    rw [waveDrag_eq, waveDrag_eq]
    have hc : 0 < cos (ac.sweep * π / 180) := by
      apply cos_pos_of_mem_Ioo
      constructor <;> nlinarith
    have hL : lift m1 tas 0 ≤ lift m2 tas 0 := by
      have hv' : 0 ≤ tas := by rcases hv with h | h <;> [exact h.le; exact h.1.ge]
      have e : atan2R (0 * 0.00508) (tas * 0.514444) = 0 := by
        rw [zero_mul]; exact Complex.arg_ofReal_of_nonneg (by positivity)
      unfold lift
      rw [e, cos_zero]; nlinarith
    have hM : machCrit np ac (lift m2 tas 0 / qS ac tas alt dT) ≤
        machCrit np ac (lift m1 tas 0 / qS ac tas alt dT) := by
      rw [machCrit_eq, machCrit_eq]
      have h1 : lift m1 tas 0 / qS ac tas alt dT ≤ lift m2 tas 0 / qS ac tas alt dT := by
        gcongr
      have h2 : 0.1 * (lift m1 tas 0 / qS ac tas alt dT) / cos (ac.sweep * π / 180) ^ 3 ≤
          0.1 * (lift m2 tas 0 / qS ac tas alt dT) / cos (ac.sweep * π / 180) ^ 3 := by
        gcongr
      linarith
    gcongr
  · intro m1 m2 vs flap gear h0 h12 hv hS hf
    refine hcalc m1 m2 vs _ _ _ ?_ h0 h12 hv le_rfl
    rw [flapK_eq]
    have : (0 : ℝ) ≤ (if ac.rear then 0.0046 else 0.0026) := by split <;> norm_num
    have hp := pi_pos
    positivity
  · intro wave m vs
    simp only [clean, calcDrag_eq, lift_neg_vs]
  · intro m vs flap gear
    simp only [nonclean, calcDrag_eq, lift_neg_vs]
  · intro wave m vs
    simp only [clean, calcDrag_eq]
    have h1 := lift_sq_le m tas vs
    rw [← lift_level_sq m tas] at h1
    have h2 : pol.k * lift m tas vs ^ 2 / qS ac tas alt dT ≤
        pol.k * lift m tas 0 ^ 2 / qS ac tas alt dT := by gcongr
    linarith

example : clean np a320 a320polar false 60000 450 33000 1000 0 <
    clean np a320 a320polar false 66000 450 33000 1000 0 :=
  (C25_drag_mass a320 a320polar (by norm_num [a320polar]) 450 33000 0).1 _ _ _ (by norm_num)
    (by norm_num) (Or.inl (by norm_num))

/-- **C26.** Zero flap and gear up is clean drag; the gear adds a fixed positive drag
coefficient; flaps add drag exactly when the squared lift coefficient is small enough. -/
theorem C26_nonclean (ac : Airframe ℝ) (pol : Polar ℝ) (hS : 0 < ac.area) (hm : 0 < ac.mtow)
    (mass tas alt vs dT : ℝ) :
    nonclean np ac pol mass tas alt 0 vs dT false = clean np ac pol false mass tas alt vs dT ∧
    (∀ flap, nonclean np ac pol mass tas alt flap vs dT true -
        nonclean np ac pol mass tas alt flap vs dT false =
      9.80665 * 3.16e-5 * ac.mtow ^ (0.785 : ℝ) / ac.area *
        max (1 / 2 * density np (alt * 0.3048) dT * (tas * 0.514444) ^ 2 * ac.area) 0.001) ∧
    (∀ flap, nonclean np ac pol mass tas alt flap vs dT false <
        nonclean np ac pol mass tas alt flap vs dT true) ∧
    (∀ flap,
      (clean np ac pol false mass tas alt vs dT < nonclean np ac pol mass tas alt flap vs dT false ↔
        (pol.k - 1 / (1 / pol.k + π * (ac.span ^ 2 / ac.area) *
            ((if ac.rear then 0.0046 else 0.0026) * flap))) *
          (cl np ac mass tas alt vs dT).1 ^ 2 <
        pol.lambdaF * pol.cfc ^ (1.38 : ℝ) * pol.sfs * sin (flap * π / 180) ^ 2)) := by
  have hq := qS_pos ac tas alt dT
  have eq : max (1 / 2 * density np (alt * 0.3048) dT * (tas * 0.514444) ^ 2 * ac.area) 0.001 =
      qS ac tas alt dT := by
    unfold qS
    rw [show (1 / 2 : ℝ) = 0.5 by norm_num, show (0.001 : ℝ) = 1e-3 by norm_num]
  have hgear : 0 < gearCd np ac := by
    rw [gearCd_eq ac hm]
    have : 0 < ac.mtow ^ (0.785 : ℝ) := rpow_pos_of_pos hm _
    positivity
  have hdiff : ∀ flap, nonclean np ac pol mass tas alt flap vs dT true -
      nonclean np ac pol mass tas alt flap vs dT false = gearCd np ac * qS ac tas alt dT := by
    intro flap
    simp only [nonclean, calcDrag_eq, if_true, Bool.false_eq_true, if_false]
    rw [show (0.0 : ℝ) = 0 by norm_num]
    ring
  refine ⟨?_, ?_, ?_, ?_⟩
  · simp only [nonclean, clean, calcDrag_eq, Bool.false_eq_true, if_false, flapCd_eq, flapK_eq]
    norm_num
  · intro flap
    rw [hdiff, gearCd_eq ac hm, eq]
  · intro flap
    have := hdiff flap
    have : 0 < gearCd np ac * qS ac tas alt dT := by positivity
    linarith
  · intro flap
    simp only [nonclean, clean, calcDrag_eq, Bool.false_eq_true, if_false, cl_eq]
    rw [← flapK_eq, ← flapCd_eq, show (0.0 : ℝ) = 0 by norm_num]
    set K := flapK np ac pol flap
    set F := flapCd np pol flap
    set Q := qS ac tas alt dT
    set L := lift mass tas vs
    have e : (pol.cd0 + F + 0) * Q + K * L ^ 2 / Q - ((pol.cd0 + 0) * Q + pol.k * L ^ 2 / Q) =
        (F - (pol.k - K) * (L / Q) ^ 2) * Q := by
      field_simp; ring
    constructor
    · intro h
      have : 0 < (F - (pol.k - K) * (L / Q) ^ 2) * Q := by linarith
      have := pos_of_mul_pos_left this hq.le
      linarith
    · intro h
      have : 0 < (F - (pol.k - K) * (L / Q) ^ 2) * Q := mul_pos (by linarith) hq
      linarith

/-- The flap model can lower the drag at ordinary approach speeds: an A320 of 66 t at
130 kt at sea level has less computed drag with 30° of flap than clean. -/
theorem C26_flaps_can_reduce_drag :
    nonclean np a320 a320polar 66000 130 0 30 0 0 false <
      clean np a320 a320polar false 66000 130 0 0 0 := by
  have hq : qS a320 130 0 0 ≤ 339800 := by
    unfold qS
    apply max_le
    · have hd : density np (0 * 0.3048) 0 = 1.225 := by
        rw [density_eq]
        unfold Spec.isaTemp Spec.shift
        norm_num
      rw [hd]
      norm_num [a320]
    · norm_num
  have hq0 := qS_pos a320 130 0 0
  simp only [nonclean, clean, calcDrag_eq, Bool.false_eq_true, if_false]
  rw [flapK_eq, flapCd_eq, lift_level_sq, show (0.0 : ℝ) = 0 by norm_num]
  have hs : sin (30 * π / 180) ^ 2 = 1 / 4 := by
    rw [show 30 * π / 180 = π / 6 by ring, sin_pi_div_six]; norm_num
  rw [hs]
  have hc : (0.176 : ℝ) ^ (1.38 : ℝ) ≤ 0.176 := by
    have := rpow_le_rpow_of_exponent_ge (x := 0.176) (y := 1.38) (z := 1) (by norm_num)
      (by norm_num) (by norm_num)
    rwa [rpow_one] at this
  have hc0 : 0 ≤ (0.176 : ℝ) ^ (1.38 : ℝ) := by positivity
  have hp := pi_gt_three
  have hK : 1 / (1 / 0.039 + π * (35.8 ^ 2 / 124) * (0.0026 * 30)) ≤ (0.0357 : ℝ) := by
    rw [div_le_iff₀ (by positivity)]
    norm_num
    nlinarith
  set Q := qS a320 130 0 0
  simp only [a320, a320polar, Bool.false_eq_true, if_false]
  set K := 1 / (1 / 0.039 + π * (35.8 ^ 2 / 124) * (0.0026 * 30 : ℝ))
  set c := (0.176 : ℝ) ^ (1.38 : ℝ)
  have h1 : (66000 * 9.80665 : ℝ) ^ 2 / Q * Q = (66000 * 9.80665) ^ 2 := by field_simp
  set y := (66000 * 9.80665 : ℝ) ^ 2 / Q
  have hy : Q * 3.62 ≤ y := by
    have hQ2 : Q * Q ≤ 339800 * 339800 := by nlinarith
    by_contra hlt
    push Not at hlt
    have : y * Q < Q * 3.62 * Q := mul_lt_mul_of_pos_right hlt hq0
    rw [h1] at this
    norm_num at this
    nlinarith
  have e1 : K * (66000 * 9.80665 : ℝ) ^ 2 / Q = K * y := by rw [mul_div_assoc]
  have e2 : 0.039 * (66000 * 9.80665 : ℝ) ^ 2 / Q = 0.039 * y := by rw [mul_div_assoc]
  rw [e1, e2]
  have hy0 : 0 < y := by nlinarith
  have h3 : K * y ≤ 0.0357 * y := mul_le_mul_of_nonneg_right hK hy0.le
  have h4 : (0.018 + 0.9 * c * 0.17 * (1 / 4) + 0) * Q ≤ (0.018 + 0.006733) * Q := by
    apply mul_le_mul_of_nonneg_right _ hq0.le
    nlinarith
  nlinarith

example : nonclean np a320 a320polar 66000 130 0 0 0 0 false =
    clean np a320 a320polar false 66000 130 0 0 0 :=
  (C26_nonclean a320 a320polar (by norm_num [a320]) (by norm_num [a320])
    66000 130 0 0 0).1

/-- **C27.** Wave drag only adds: with `wave_drag=True` clean drag is never lower, equals
the plain value up to the critical Mach number and is higher beyond it. -/
theorem C27_wave_drag (ac : Airframe ℝ) (pol : Polar ℝ) (mass tas alt vs dT : ℝ) :
    let M := tas * 0.514444 / vsound np (alt * 0.3048) dT
    let c := cos (ac.sweep * π / 180)
    let Mcr := 0.95 / c - ac.tc.getD 0.12 / c ^ 2
      - 0.1 * (cl np ac mass tas alt 0 dT).1 / c ^ 3 - 0.108
    clean np ac pol false mass tas alt vs dT ≤ clean np ac pol true mass tas alt vs dT ∧
    (M ≤ Mcr → clean np ac pol true mass tas alt vs dT =
      clean np ac pol false mass tas alt vs dT) ∧
    (Mcr < M → clean np ac pol true mass tas alt vs dT =
      clean np ac pol false mass tas alt vs dT +
        20 * (M - Mcr) ^ 4 * (cl np ac mass tas alt 0 dT).2 ∧
      clean np ac pol false mass tas alt vs dT < clean np ac pol true mass tas alt vs dT) := by
  intro M c Mcr
  have hq := qS_pos ac tas alt dT
  have hM : tas2mach np (tas * 0.514444) (alt * 0.3048) dT = M := rfl
  have hC : machCrit np ac (lift mass tas 0 / qS ac tas alt dT) = Mcr := by
    rw [machCrit_eq]; rfl
  have e : clean np ac pol true mass tas alt vs dT =
      clean np ac pol false mass tas alt vs dT + 20 * max (M - Mcr) 0 ^ 4 * qS ac tas alt dT := by
    simp only [clean, calcDrag_eq, if_true, Bool.false_eq_true, if_false]
    rw [waveDrag_eq, hM, hC, show (0.0 : ℝ) = 0 by norm_num]
    ring
  have hcl : (cl np ac mass tas alt 0 dT).2 = qS ac tas alt dT := rfl
  refine ⟨?_, ?_, ?_⟩
  · rw [e]
    have : 0 ≤ 20 * max (M - Mcr) 0 ^ 4 * qS ac tas alt dT := by positivity
    linarith
  · intro h
    rw [e, max_eq_right (by linarith)]
    norm_num
  · intro h
    rw [hcl, e, max_eq_left (by linarith)]
    refine ⟨rfl, ?_⟩
    have : 0 < M - Mcr := by linarith
    have : 0 < 20 * (M - Mcr) ^ 4 * qS ac tas alt dT := by positivity
    linarith

end Verif.Props
