import Verif.Props.Bada4Perf

/-!
# C111 for samples without a vertical rate
-/

namespace Verif.Bada4
open Verif Verif.Arrays Verif.Defined Verif.Aero Verif.Registry Verif.Tables NR Spec.Bada4

theorem nsum_nan (n : ℕ) (f : ℕ → NR) (i : ℕ) (hi : i < n) (h : f i = nan) : nsum n f = nan := by
  induction n with
  | zero => omega
  | succ n ih =>
    rw [nsum]
    rcases Nat.lt_succ_iff_lt_or_eq.1 hi with g | g
    · rw [ih g, nan_add]
    · rw [← g, h, add_nan]

/-- The 5 × 5 polynomial of samples that may be missing. -/
theorem einsum5_row {n : ℕ} {coef : List ℝ} (hl : coef.length = 5 * 5) {c M : Nd} {x : ℕ → NR} {y : ℕ → ℝ}
    (hc : Col n c x) (hM : Col n M fun k => val (y k)) :
    ∃ a, einsum 5 5 coef n (fun j k => c.get k 0 ^ j) n (fun i k => M.get k 0 ^ i) = .ok a ∧
      Row n a fun k => match x k with
        | val z => val (cf coef (y k) z)
        | nan => nan := by
  refine ⟨⟨1, 1, n, fun _ t => nsum 5 fun i => nsum 5 fun j =>
    .val (coef.getD (i * 5 + j) 0) * c.get (idx n t) 0 ^ j * M.get (idx n t) 0 ^ i⟩, ?_, rfl, rfl, ?_⟩
  · simp only [einsum, hl, bdim_same, bind, Except.bind, pure, Except.pure, ne_eq, not_true_eq_false,
      if_false]
  · intro t ht
    have ht' : idx n t = t := by
      unfold idx; split_ifs with h
      · omega
      · rfl
    simp only [ht', hc.2.2 t ht, hM.2.2 t ht]
    cases h : x t with
    | val z =>
      simp only
      rw [← cf_sum]
      refine nsum_val _ _ _ fun i _ => nsum_val _ _ _ fun j _ => ?_
      rw [npow_val, npow_val, val_mul, val_mul]
    | nan =>
      refine nsum_nan 5 _ 0 (by norm_num) (nsum_nan 5 _ 1 (by norm_num) ?_)
      rw [nan_pow 1 one_ne_zero, mul_nan, nan_mul]

theorem calc_row {n : ℕ} {o : FuelFlow} (ho : o.lhv ≠ 0) {delta theta cF : Nd} {a : ℕ → ℝ} {f : ℕ → NR}
    (hd : Col n delta fun i => val (deltaOf (a i))) (ht : Col n theta fun i => val (thetaOf (a i)))
    (hf : Row n cF f) :
    ∃ r : Nd, o.calc delta theta cF = .ok r ∧ Col n r fun i => match f i with
      | val z => val (flowOf o (a i) z)
      | nan => nan := by
  obtain ⟨x, a1, a2⟩ := op2_col
    (fun d t => d * npNR.power t 0.5 * .val o.massRef * Aero.g0 * Aero.a0) hd.col.vals ht.col.vals
    (.inl hd.col.2.1)
  obtain ⟨r, b1, b2⟩ := op2_col (fun x c => x * .val (1 / o.lhv) * c) a2.vals hf.col.vals (.inl a2.2.1)
  refine ⟨r.toScalar, ?_, b2.toScalar.congr fun i _ => ?_⟩
  · unfold FuelFlow.calc
    simp only [a1, b1, ho, if_false, bind, Except.bind, pure, Except.pure]
  · have hp : npNR.power (val (thetaOf (a i))) 0.5 = val (Real.sqrt (thetaOf (a i))) := by
      show npNR.power (val _) (val (0.5 : ℝ)) = _
      rw [b_power (thetaOf_pos _), Real.sqrt_eq_rpow]
      norm_num
    rw [hp]
    cases f i with
    | val z => rfl
    | nan => exact mul_nan _

theorem enroute_missing {n : ℕ} {o : FuelFlow} (ho : o.Complete) {mass tas alt vs : Nd} {m t a : ℕ → ℝ}
    {w : ℕ → NR}
    (hm : Col n mass.col fun i => val (m i)) (ht : Col n tas.col fun i => val (t i))
    (ha : Col n alt.col fun i => val (a i)) (hw : Col n vs.col w) (h0 : ∀ i < n, 0 ≤ t i) :
    ∃ r : Nd, o.enroute true mass tas alt vs = .ok r.toScalar ∧
      Col n r fun i => match w i with
        | val x => val (enrouteOf o (m i) (t i) (a i) x)
        | nan => nan := by
  obtain ⟨od, lf, lfi, ol, omr⟩ := ho
  obtain ⟨M, m1, m2⟩ := mach_col ht ha
  have hd := delta_col ha
  obtain ⟨g, g1, g2⟩ := op2_col (fun r v => npNR.arctan2 (r * Aero.fpm) v) hw.vals (ht.map (· * kts)).vals
    (.inl hw.2.1)
  obtain ⟨D, d1, d2⟩ := clean_col od hm.col ht.col ha.col h0
  obtain ⟨x, x1, x2⟩ := op2_col (fun m g => m * Aero.g0 * npNR.sin g) hm.vals g2.vals (.inl hm.2.1)
  obtain ⟨T, t1, t2⟩ := op2_col (· + ·) d2.toScalar.vals x2.vals (.inl d2.toScalar.2.1)
  obtain ⟨c, c1, c2⟩ := op2_col (fun t d => t / (d * .val o.massRef * Aero.g0)) t2.vals hd.vals
    (.inl t2.2.1)
  have c3 : Col n c fun i => match w i with
      | val x => val (ctNeeded o (m i) (t i) (a i) x)
      | nan => nan := by
    refine c2.congr fun i _ => ?_
    cases w i with
    | val x =>
      show (val _ + val (m i * 9.80665) * npNR.sin (val (atan2R (x * 0.00508) (t i * 0.514444)))) /
        val (deltaOf (a i) * o.massRef * 9.80665) = _
      rw [b_sin, val_mul, val_add, val_div _ _ (by
        have := (deltaOf_pos (a i)).ne'
        have : (9.80665 : ℝ) ≠ 0 := by norm_num
        simp_all)]
      rfl
    | nan =>
      show (val _ + val (m i * 9.80665) * nan) / val (deltaOf (a i) * o.massRef * 9.80665) = nan
      rw [mul_nan, add_nan, nan_div]
  obtain ⟨y, y1, y2⟩ := einsum5_row (coef := o.f) lf c3 m2
  obtain ⟨z, z1, z2⟩ := calc_row ol hd (theta_col ha) y2
  obtain ⟨i, i1, i2⟩ := idle_col ol lfi ht.col ha.col
  classical
  obtain ⟨r, r1, r2⟩ := op3_col (fun r i n => if NRlt r (-250) then i else n) hw i2.toScalar.vals z2.vals
  refine ⟨r, ?_, r2.congr fun k _ => ?_⟩
  · unfold FuelFlow.enroute
    have e1 := c3.2.1
    have e2 := m2.2.1
    simp only [m1, g1, d1, x1, need, if_true, bind, Except.bind, pure, Except.pure]
    simp only [t1, c1, e1, e2, y1, z1, i1]
    have : (fun r i n => if NRlt r (-250) then i else n : NR → NR → NR → NR) =
      fun r i n => @ite _ (NRlt r (-250)) (Classical.propDecidable _) i n := by
      funext m c k; congr
    rw [this] at r1
    rw [r1]
  · cases w k with
    | val x =>
      unfold enrouteOf
      by_cases h : x < -250
      · rw [if_pos (show NRlt (val x) (-250) from h)]
        simp only [if_pos h]
      · rw [if_neg (show ¬ NRlt (val x) (-250) from h)]
        simp only [if_neg h]
    | nan => rw [if_neg (show ¬ NRlt nan (-250) from id)]

end Verif.Bada4

namespace Verif.Props
open Verif Verif.Bada4 Verif.Tables Verif.Registry Verif.Arrays Verif.Aero NR

/-- **C111 (missing vertical rate).** In a list in which some vertical rates are missing, the enroute fuel
flow of exactly those samples is missing; it is not the idle fuel flow. The other samples have the fuel
flow they have on their own. -/
theorem C111_missing (o : Bada4.FuelFlow) (h15 : 15 ≤ o.drag.d.length) (h1 : o.drag.machMax < 1)
    (h2 : -0.99 < o.drag.machMax) (h25 : o.f.length = 25) (h9 : o.fi.length = 9) (hl : o.lhv ≠ 0)
    (hr : o.massRef ≠ 0) (n : ℕ) (mass tas alt : ℕ → ℝ) (vs : ℕ → NR) (h0 : ∀ i < n, 0 ≤ tas i) :
    ∃ r, o.enroute true (reals n mass) (reals n tas) (reals n alt) (Nd.vec n vs) = .ok r ∧ r.rows = n ∧
      r.cols = 1 ∧ ∀ i < n, (r.get i 0 = nan ↔ vs i = nan) ∧
        ∀ x, vs i = val x →
          o.enroute true (real1 (mass i)) (real1 (tas i)) (real1 (alt i)) (real1 x) =
            .ok (.num (r.get i 0)) := by
  have ho : o.Complete := ⟨⟨h15, h1, h2⟩, h25, h9, hl, hr⟩
  obtain ⟨r, r1, r2⟩ := enroute_missing ho (col_vec n fun i => val (mass i))
    (col_vec n fun i => val (tas i)) (col_vec n fun i => val (alt i)) (col_vec n vs) h0
  refine ⟨r.toScalar, r1, r2.toScalar.2.1, r2.toScalar.1, fun i hi => ?_⟩
  have e := r2.toScalar.2.2 i hi
  cases h : vs i with
  | val x =>
    simp only [h] at e
    rw [e]
    refine ⟨by simp, fun x' hx => ?_⟩
    obtain rfl : x = x' := by simpa using hx
    exact enroute_num ho _ _ _ _ (h0 i hi)
  | nan =>
    simp only [h] at e
    exact ⟨by simp [e], fun x' hx => by simp at hx⟩

/-- A complete model; the second of three vertical rates is missing, and so is the second fuel flow. -/
example : ∃ o : Bada4.FuelFlow, ∃ r, o.enroute true (reals 3 fun _ => 60000) (reals 3 fun _ => 400)
      (reals 3 fun _ => 30000) (Nd.vec 3 fun i => if i = 1 then nan else val (-1000 * i)) = .ok r ∧
    r.get 0 0 ≠ nan ∧ r.get 1 0 = nan ∧ r.get 2 0 ≠ nan := by
  let o : Bada4.FuelFlow :=
    { thrust := ⟨1, [], [], (0, 0), ([], []), ([], [])⟩
      drag := ⟨0, List.replicate 15 0, 0.8, 100⟩
      massRef := 1
      f := 0 :: 1 :: List.replicate 23 0
      fi := 1 :: List.replicate 8 0
      lhv := 1 }
  obtain ⟨r, r1, -, -, h⟩ := C111_missing o (by simp [o]) (by norm_num [o]) (by norm_num [o]) (by simp [o])
    (by simp [o]) (by norm_num [o]) (by norm_num [o]) 3 (fun _ => 60000) (fun _ => 400) (fun _ => 30000)
    (fun i => if i = 1 then nan else val (-1000 * i)) (fun _ _ => by norm_num)
  refine ⟨o, r, r1, ?_, ?_, ?_⟩
  · rw [ne_eq, (h 0 (by norm_num)).1]; simp
  · rw [(h 1 (by norm_num)).1]; simp
  · rw [ne_eq, (h 2 (by norm_num)).1]; simp

end Verif.Props
