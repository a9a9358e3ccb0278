import Verif.Lemmas.Bada4
import Verif.Lemmas.Geo

/-!
# BADA4 drag and fuel flow on `n` samples
-/

namespace Verif.Bada4
open Verif Verif.Arrays Verif.Defined Verif.Aero Verif.Registry Verif.Tables NR Spec.Bada4

/-- `_cd_base` for one sample. -/
noncomputable def cdElem (o : Drag) (cl m : NR) : NR :=
  let x := npNR.power (1.0 - m ^ 2) (-0.5)
  .val o.scalar * ((nsum 5 fun i => x ^ i * .val (o.d.getD i 0)) +
    (nsum 5 fun i => x ^ (3 * i) * .val (o.d.getD (5 + i) 0)) * cl ^ 2 +
    (.val (o.d.getD 10 0) + nsum 4 fun i => x ^ (14 + i) * .val (o.d.getD (11 + i) 0)) * cl ^ 6)

theorem cdBase_vals {n : ℕ} {o : Drag} (ho : 15 ≤ o.d.length) {cl mach : Nd} {C M : ℕ → NR}
    (hc : Vals n cl C) (hm : Vals n mach M) :
    ∃ r, o.cdBase true cl mach = .ok r.toScalar ∧ Vals n r fun i => cdElem o (C i) (M i) := by
  have hx := hm.col.map fun m => npNR.power (1.0 - m ^ 2) (-0.5)
  obtain ⟨t2, a1, a2⟩ := op2_vals (· * ·)
    (hx.map fun x => nsum 5 fun i => x ^ (3 * i) * .val (o.d.getD (5 + i) 0)) (hc.col.map (· ^ 2))
  obtain ⟨s, b1, b2⟩ := op2_vals (· + ·) (hx.map fun x => nsum 5 fun i => x ^ i * .val (o.d.getD i 0)) a2
  obtain ⟨t6, c1, c2⟩ := op2_vals (· * ·)
    (hx.map fun x => .val (o.d.getD 10 0) + nsum 4 fun i => x ^ (14 + i) * .val (o.d.getD (11 + i) 0))
    (hc.col.map (· ^ 6))
  obtain ⟨u, d1, d2⟩ := op2_vals (· + ·) b2 c2
  refine ⟨u.map (.val o.scalar * ·), ?_, d2.map _⟩
  unfold Drag.cdBase
  have l1 : ¬ o.d.length < 10 := by omega
  have l2 : ¬ o.d.length < 11 := by omega
  have l3 : ¬ o.d.length < 15 := by omega
  simp only [need, if_true, l1, l2, l3, if_false, bind, Except.bind, pure, Except.pure]
  simp only [a1, b1, c1, d1]

theorem cdElem_val (o : Drag) (CL : ℝ) {M : ℝ} (hM : M ^ 2 < 1) :
    cdElem o (val CL) (val M) = val (cd o.scalar o.d CL M) := by
  have hp : npNR.power (1.0 - (val M : NR) ^ 2) (-0.5) = val (1 / Real.sqrt (1 - M ^ 2)) := by
    rw [npow_val]
    show npNR.power (val (1.0 - M ^ 2)) (val (-0.5)) = _
    rw [b_power (by rw [show (1.0 : ℝ) = 1 by norm_num]; linarith)]
    congr 1
    have h1 : (0 : ℝ) ≤ 1 - M ^ 2 := by linarith
    rw [Real.sqrt_eq_rpow, one_div, ← Real.rpow_neg h1]
    norm_num
  unfold cdElem cd
  simp only [hp]
  generalize (1 / Real.sqrt (1 - M ^ 2)) = x
  rw [nsum_val 5 _ (fun i => nth o.d i * x ^ i), nsum_val 5 _ (fun i => nth o.d (5 + i) * x ^ (3 * i)),
    nsum_val 4 _ (fun i => nth o.d (11 + i) * x ^ (14 + i)), npow_val, npow_val]
  · simp only [val_add, val_mul]
    rfl
  all_goals
    intro i _
    rw [npow_val, val_mul, mul_comm]
    rfl

/-- `_cd` for one sample. -/
noncomputable def cdAnyElem (o : Drag) (cl m : NR) : NR :=
  open Classical in
  if NRlt m o.machMax then cdElem o cl m
  else cdElem o cl (val (o.machMax - 0.01)) +
    npNR.power (npNR.maximum ((m - val (o.machMax - 0.01)) / 0.01) 0.0) 1.5 *
      (cdElem o cl (val o.machMax) - cdElem o cl (val (o.machMax - 0.01)))

theorem toScalar_vals {n : ℕ} {a : Nd} {u : ℕ → NR} (h : Vals n a u) : Vals n a.toScalar u := by
  unfold Nd.toScalar
  split_ifs with hs
  · refine ⟨rfl, .inr ⟨rfl, fun i hi => ?_⟩⟩
    have hr : a.rows = 1 := by rw [h.1, mul_one] at hs; exact hs
    rcases h.2 with ⟨h1, h2⟩ | ⟨h1, h2⟩
    · have : i = 0 := by omega
      subst this
      exact h2 0 hi
    · exact h2 i hi
  · exact h

theorem cd_col {n : ℕ} {o : Drag} (ho : 15 ≤ o.d.length) {cl mach : Nd} {C M : ℕ → NR}
    (hc : Vals n cl C) (hm : Col n mach M) :
    ∃ r, o.cd true cl mach = .ok r ∧ (Col n r fun i => cdAnyElem o (C i) (M i)) ∧ r.toScalar = r := by
  obtain ⟨r1, a1, a2⟩ := cdBase_vals ho hc.col hm.col.vals
  obtain ⟨r2, b1, b2⟩ := cdBase_vals ho hc.col (vals_num n (val o.machMax))
  obtain ⟨r3, c1, c2⟩ := cdBase_vals ho hc.col (vals_num n (val (o.machMax - 0.01)))
  obtain ⟨df, d1, d2⟩ := op2_vals (· - ·) (toScalar_vals b2) (toScalar_vals c2)
  obtain ⟨t, e1, e2⟩ := op2_vals (· * ·)
    (((hm.col.map fun m => (m - .val (o.machMax - 0.01)) / 0.01).map fun x => npNR.maximum x 0.0).map
      fun x => npNR.power x 1.5).vals d2
  obtain ⟨k, f1, f2⟩ := op2_vals (· + ·) (toScalar_vals c2) e2
  classical
  obtain ⟨r, g1, g2⟩ := op3_col (fun m c k => if NRlt m o.machMax then c else k) hm.col
    (toScalar_vals a2) f2
  refine ⟨r.toScalar, ?_, g2.toScalar.congr fun i _ => ?_, ?_⟩
  · unfold Drag.cd
    simp only [a1, b1, c1, need, if_true, bind, Except.bind, pure, Except.pure]
    simp only [d1, e1, f1]
    have : (fun m c k => if NRlt m o.machMax then c else k : NR → NR → NR → NR) =
      fun m c k => @ite _ (NRlt m o.machMax) (Classical.propDecidable _) c k := by
      funext m c k; congr
    rw [this] at g1
    rw [g1]
  · unfold cdAnyElem
    congr
  · unfold Nd.toScalar
    by_cases hh : r.rows * r.cols = 1
    · simp only [if_pos hh]; rfl
    · simp only [if_neg hh]

theorem cdAnyElem_val (o : Drag) (h1 : o.machMax < 1) (h2 : -0.99 < o.machMax) (CL : ℝ) {M : ℝ}
    (hM : 0 ≤ M) : cdAnyElem o (val CL) (val M) = val (cdAny o.scalar o.d o.machMax CL M) := by
  have q1 : o.machMax ^ 2 < 1 := by nlinarith
  have q2 : (o.machMax - 0.01) ^ 2 < 1 := by nlinarith
  unfold cdAnyElem cdAny
  by_cases h : M < o.machMax
  · rw [if_pos (show NRlt (val M) o.machMax from h), if_pos h, cdElem_val o CL (by nlinarith)]
  · rw [if_neg (show ¬ NRlt (val M) o.machMax from h), if_neg h, cdElem_val o CL q1, cdElem_val o CL q2]
    have hd : ((val M : NR) - val (o.machMax - 0.01)) / 0.01 = val ((M - (o.machMax - 0.01)) / 0.01) := by
      show val _ / val (0.01 : ℝ) = _
      rw [val_div _ _ (by norm_num)]
    have hp : 0 < (M - (o.machMax - 0.01)) / 0.01 := by
      push Not at h
      apply div_pos <;> norm_num; linarith
    rw [hd, zero_sci, b_max, max_eq_left hp.le]
    show _ + npNR.power (val _) (val (1.5 : ℝ)) * _ = _
    rw [b_power hp, val_sub, val_mul, val_add]
    norm_num

/-- Dynamic pressure times wing area. -/
noncomputable def qsOf (area tas alt : ℝ) : ℝ :=
  0.5 * density np (alt * 0.3048) 0 * (tas * 0.514444) ^ 2 * area

theorem cl_col {n : ℕ} {o : Drag} {mass tas alt : Nd} {m t a : ℕ → ℝ}
    (hm : Col n mass.col fun i => val (m i)) (ht : Col n tas.col fun i => val (t i))
    (ha : Col n alt.col fun i => val (a i)) :
    ∃ c q, o.cl true mass tas alt = .ok (c, q) ∧
      Col n c (fun i => val (m i * 9.80665 / max (qsOf o.area (t i) (a i)) 0.001)) ∧
      Col n q (fun i => val (qsOf o.area (t i) (a i))) := by
  obtain ⟨q, a1, a2⟩ := op2_col (fun r v => 0.5 * r * v ^ 2 * .val o.area)
    ((ha.map (· * ft)).map fun x => density npNR x 0.0).vals (ht.map (· * kts)).vals
    (.inl ((ha.map _).map _).2.1)
  have a3 : Col n q fun i => val (qsOf o.area (t i) (a i)) := by
    refine a2.congr fun i _ => ?_
    rw [zero_sci, show (val (a i) * ft : NR) = val (a i * 0.3048) from rfl, density_def,
      show (val (t i) * kts : NR) = val (t i * 0.514444) from rfl, npow_val]
    rfl
  obtain ⟨c, b1, b2⟩ := op2_col (fun l q => l / npNR.maximum q 1e-3) (hm.map (· * g0)).vals a3.vals
    (.inl (hm.map _).2.1)
  refine ⟨c.toScalar, q.toScalar, ?_, b2.toScalar.congr fun i _ => ?_, a3.toScalar⟩
  · unfold Drag.cl
    simp only [need, if_true, bind, Except.bind, pure, Except.pure]
    simp only [a1, b1]
  · show val (m i * 9.80665) / val (max _ 1e-3) = _
    rw [val_div _ _ (ne_of_gt (lt_of_lt_of_le (by norm_num) (le_max_right _ _)))]

/-- `clean` for one sample. -/
noncomputable def dragOf (o : Drag) (mass tas alt : ℝ) : ℝ :=
  cdAny o.scalar o.d o.machMax (mass * 9.80665 / max (qsOf o.area tas alt) 0.001) (machOf tas alt) *
    qsOf o.area tas alt

/-- A complete drag model with maximum Mach number below 1. -/
def Drag.Complete (o : Drag) : Prop := 15 ≤ o.d.length ∧ o.machMax < 1 ∧ -0.99 < o.machMax

theorem machOf_nonneg {tas : ℝ} (h : 0 ≤ tas) (alt : ℝ) : 0 ≤ machOf tas alt :=
  div_nonneg (mul_nonneg h (by norm_num)) (vsound_pos _ _).le

theorem clean_col {n : ℕ} {o : Drag} (ho : o.Complete) {mass tas alt : Nd} {m t a : ℕ → ℝ}
    (hm : Col n mass.col fun i => val (m i)) (ht : Col n tas.col fun i => val (t i))
    (ha : Col n alt.col fun i => val (a i)) (h0 : ∀ i < n, 0 ≤ t i) :
    ∃ r : Nd, o.clean true mass tas alt = .ok r.toScalar ∧
      Col n r fun i => val (dragOf o (m i) (t i) (a i)) := by
  obtain ⟨M, m1, m2⟩ := mach_col ht ha
  obtain ⟨c, q, c1, c2, c3⟩ := cl_col (o := o) hm ht ha
  obtain ⟨d, d1, d2, _⟩ := cd_col ho.1 c2.vals m2
  obtain ⟨r, r1, r2⟩ := op2_col (· * ·) d2.vals c3.vals (.inl d2.2.1)
  refine ⟨r, ?_, r2.congr fun i hi => ?_⟩
  · unfold Drag.clean
    simp only [m1, c1, d1, r1, bind, Except.bind, pure, Except.pure]
  · rw [cdAnyElem_val o ho.2.1 ho.2.2 _ (machOf_nonneg (h0 i hi) _), val_mul]
    rfl

/-- `_calc_fuel` for one sample. -/
noncomputable def flowOf (o : FuelFlow) (alt cF : ℝ) : ℝ :=
  deltaOf alt * Real.sqrt (thetaOf alt) * o.massRef * 9.80665 * 340.293988 * (1 / o.lhv) * cF

theorem calc_col {n : ℕ} {o : FuelFlow} (ho : o.lhv ≠ 0) {delta theta cF : Nd} {a f : ℕ → ℝ}
    (hd : Col n delta fun i => val (deltaOf (a i))) (ht : Col n theta fun i => val (thetaOf (a i)))
    (hf : Row n cF fun i => val (f i)) :
    ∃ r : Nd, o.calc delta theta cF = .ok r ∧ Col n r fun i => val (flowOf o (a i) (f i)) := by
  obtain ⟨x, a1, a2⟩ := op2_col
    (fun d t => d * npNR.power t 0.5 * .val o.massRef * Aero.g0 * Aero.a0) hd.col.vals ht.col.vals
    (.inl hd.col.2.1)
  obtain ⟨r, b1, b2⟩ := op2_col (fun x c => x * .val (1 / o.lhv) * c) a2.vals hf.col.vals (.inl a2.2.1)
  refine ⟨r.toScalar, ?_, b2.toScalar.congr fun i _ => ?_⟩
  · unfold FuelFlow.calc
    simp only [a1, b1, ho, if_false, bind, Except.bind, pure, Except.pure]
  · have hp : npNR.power (val (thetaOf (a i))) 0.5 = val (Real.sqrt (thetaOf (a i))) := by
      show npNR.power (val _) (val (0.5 : ℝ)) = _
      rw [b_power (thetaOf_pos _), Real.sqrt_eq_rpow]
      norm_num
    rw [hp]
    rfl

theorem cf_sum (f : List ℝ) (x y : ℝ) :
    ∑ i ∈ Finset.range 5, ∑ j ∈ Finset.range 5, f.getD (i * 5 + j) 0 * x ^ j * y ^ i = cf f y x := by
  unfold cf nth
  simp only [mul_comm _ 5]

theorem idleCf_sum (f : List ℝ) (x y : ℝ) :
    ∑ i ∈ Finset.range 3, ∑ j ∈ Finset.range 3, f.getD (i * 3 + j) 0 * x ^ j * y ^ i = idleCf f y x := by
  unfold idleCf nth
  simp only [mul_comm _ 3]

/-- `idle` for one sample. -/
noncomputable def idleOf (o : FuelFlow) (tas alt : ℝ) : ℝ :=
  flowOf o alt (idleCf o.fi (machOf tas alt) (deltaOf alt))

theorem idle_col {n : ℕ} {o : FuelFlow} (ho : o.lhv ≠ 0) (hl : o.fi.length = 9) {tas alt : Nd}
    {t a : ℕ → ℝ} (ht : Col n tas.col fun i => val (t i)) (ha : Col n alt.col fun i => val (a i)) :
    ∃ r : Nd, o.idle true tas alt = .ok r.toScalar ∧ Col n r fun i => val (idleOf o (t i) (a i)) := by
  obtain ⟨M, m1, m2⟩ := mach_col ht ha
  have hd := delta_col ha
  obtain ⟨c, c1, c2⟩ := einsum_row (n := n) (r := 3) (c := 3) hl
    (p := fun j k => ((alt.col.map (· * ft)).map fun x => pressure npNR x 0.0 / p0).get k 0 ^ j)
    (p' := fun j k => deltaOf (a k) ^ j)
    (q := fun i k => M.get k 0 ^ i) (q' := fun i k => machOf (t k) (a k) ^ i)
    (by intro j _ k hk; rw [hd.2.2 k hk, npow_val]) (by intro j _ k hk; rw [m2.2.2 k hk, npow_val])
  obtain ⟨r, r1, r2⟩ := calc_col ho hd (theta_col ha) c2
  refine ⟨r, ?_, r2.congr fun i _ => ?_⟩
  · unfold FuelFlow.idle
    have e1 := hd.2.1
    have e2 := m2.2.1
    simp only [m1, need, if_true, bind, Except.bind, pure, Except.pure, e1, e2]
    simp only [c1, r1]
  · rw [idleCf_sum]; rfl

/-- Thrust coefficient needed for one sample. -/
noncomputable def ctNeeded (o : FuelFlow) (mass tas alt vs : ℝ) : ℝ :=
  (dragOf o.drag mass tas alt + mass * 9.80665 *
    Real.sin (atan2R (vs * 0.00508) (tas * 0.514444))) / (deltaOf alt * o.massRef * 9.80665)

/-- `enroute` for one sample. -/
noncomputable def enrouteOf (o : FuelFlow) (mass tas alt vs : ℝ) : ℝ :=
  open Classical in
  if vs < -250 then idleOf o tas alt
  else flowOf o alt (cf o.f (machOf tas alt) (ctNeeded o mass tas alt vs))

/-- A complete fuel model. -/
def FuelFlow.Complete (o : FuelFlow) : Prop :=
  o.drag.Complete ∧ o.f.length = 25 ∧ o.fi.length = 9 ∧ o.lhv ≠ 0 ∧ o.massRef ≠ 0

theorem enroute_col {n : ℕ} {o : FuelFlow} (ho : o.Complete) {mass tas alt vs : Nd} {m t a w : ℕ → ℝ}
    (hm : Col n mass.col fun i => val (m i)) (ht : Col n tas.col fun i => val (t i))
    (ha : Col n alt.col fun i => val (a i)) (hw : Col n vs.col fun i => val (w i))
    (h0 : ∀ i < n, 0 ≤ t i) :
    ∃ r : Nd, o.enroute true mass tas alt vs = .ok r.toScalar ∧
      Col n r fun i => val (enrouteOf o (m i) (t i) (a i) (w i)) := by
  obtain ⟨od, lf, lfi, ol, omr⟩ := ho
  obtain ⟨M, m1, m2⟩ := mach_col ht ha
  have hd := delta_col ha
  obtain ⟨g, g1, g2⟩ := op2_col (fun r v => npNR.arctan2 (r * Aero.fpm) v) hw.vals (ht.map (· * kts)).vals
    (.inl hw.2.1)
  obtain ⟨D, d1, d2⟩ := clean_col od hm.col ht.col ha.col h0
  obtain ⟨x, x1, x2⟩ := op2_col (fun m g => m * Aero.g0 * npNR.sin g) hm.vals g2.vals (.inl hm.2.1)
  obtain ⟨T, t1, t2⟩ := op2_col (· + ·) d2.toScalar.vals x2.vals (.inl d2.toScalar.2.1)
  obtain ⟨c, c1, c2⟩ := op2_col (fun t d => t / (d * .val o.massRef * Aero.g0)) t2.vals hd.vals
    (.inl t2.2.1)
  have c3 : Col n c fun i => val (ctNeeded o (m i) (t i) (a i) (w i)) := by
    refine c2.congr fun i _ => ?_
    show (val _ + val (m i * 9.80665) * npNR.sin (val (atan2R (w i * 0.00508) (t i * 0.514444)))) /
      val (deltaOf (a i) * o.massRef * 9.80665) = _
    rw [b_sin, val_mul, val_add, val_div _ _ (by
      have := (deltaOf_pos (a i)).ne'
      have : (9.80665 : ℝ) ≠ 0 := by norm_num
      simp_all)]
    rfl
  obtain ⟨y, y1, y2⟩ := einsum_row (n := n) (r := 5) (c := 5) lf
    (p := fun j k => c.get k 0 ^ j) (p' := fun j k => ctNeeded o (m k) (t k) (a k) (w k) ^ j)
    (q := fun i k => M.get k 0 ^ i) (q' := fun i k => machOf (t k) (a k) ^ i)
    (by intro j _ k hk; rw [c3.2.2 k hk, npow_val]) (by intro j _ k hk; rw [m2.2.2 k hk, npow_val])
  obtain ⟨z, z1, z2⟩ := calc_col ol hd (theta_col ha) y2
  obtain ⟨i, i1, i2⟩ := idle_col ol lfi ht.col ha.col
  classical
  obtain ⟨r, r1, r2⟩ := op3_col (fun r i n => if NRlt r (-250) then i else n) hw i2.toScalar.vals z2.vals
  refine ⟨r, ?_, r2.congr fun k _ => ?_⟩
  · unfold FuelFlow.enroute
    have e1 := c3.2.1
    have e2 := m2.2.1
    simp only [m1, g1, d1, x1, need, if_true, bind, Except.bind, pure, Except.pure]
    simp only [t1, c1, e1, e2, y1, z1, i1]
    have : (fun r i n => if NRlt r (-250) then i else n : NR → NR → NR → NR) =
      fun r i n => @ite _ (NRlt r (-250)) (Classical.propDecidable _) i n := by
      funext m c k; congr
    rw [this] at r1
    rw [r1]
  · unfold enrouteOf
    rw [cf_sum]
    by_cases h : w k < -250
    · rw [if_pos (show NRlt (val (w k)) (-250) from h), if_pos h]
    · rw [if_neg (show ¬ NRlt (val (w k)) (-250) from h), if_neg h]

end Verif.Bada4
