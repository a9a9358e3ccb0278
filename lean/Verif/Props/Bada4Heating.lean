import Verif.Props.Bada4Missing

/-!
# C111 for a heating value of zero
-/

namespace Verif.Bada4
open Verif Verif.Arrays Verif.Defined Verif.Aero Verif.Registry Verif.Tables NR Spec.Bada4

theorem calc_zero {n : ℕ} {o : FuelFlow} (ho : o.lhv = 0) {delta theta : Nd} (cF : Nd) {a b : ℕ → NR}
    (hd : Col n delta a) (ht : Col n theta b) : o.calc delta theta cF = .error .zeroDivision := by
  obtain ⟨x, a1, -⟩ := op2_col
    (fun d t => d * npNR.power t 0.5 * .val o.massRef * Aero.g0 * Aero.a0) hd.col.vals ht.col.vals
    (.inl hd.col.2.1)
  unfold FuelFlow.calc
  simp only [a1, ho, if_true, bind, Except.bind, throw, throwThe, MonadExceptOf.throw]

theorem einsum_ok {r c n : ℕ} {coef : List ℝ} (hl : coef.length = r * c) (p q : ℕ → ℕ → NR) :
    ∃ a, einsum r c coef n p n q = .ok a := by
  simp only [einsum, hl, bdim_same, bind, Except.bind, pure, Except.pure, ne_eq, not_true_eq_false,
    if_false]
  exact ⟨_, rfl⟩

end Verif.Bada4

namespace Verif.Props
open Verif Verif.Bada4 Verif.Tables Verif.Registry Verif.Arrays Verif.Aero NR

/-- **C111 (heating value).** When the heating value is zero, both fuel flows raise ZeroDivisionError for
every list of flight conditions, with or without missing vertical rates; no sample is infinite or NaN
instead. -/
theorem C111_zero_heating (o : Bada4.FuelFlow) (h15 : 15 ≤ o.drag.d.length) (h1 : o.drag.machMax < 1)
    (h2 : -0.99 < o.drag.machMax) (h25 : o.f.length = 25) (h9 : o.fi.length = 9) (hl : o.lhv = 0)
    (n : ℕ) (mass tas alt : ℕ → ℝ) (vs : ℕ → NR) (h0 : ∀ i < n, 0 ≤ tas i) :
    o.idle true (reals n tas) (reals n alt) = .error .zeroDivision ∧
    o.enroute true (reals n mass) (reals n tas) (reals n alt) (Nd.vec n vs) = .error .zeroDivision := by
  have hm : Col n (reals n mass).col _ := col_vec n fun i => val (mass i)
  have ht : Col n (reals n tas).col _ := col_vec n fun i => val (tas i)
  have ha : Col n (reals n alt).col _ := col_vec n fun i => val (alt i)
  have hw := col_vec n vs
  obtain ⟨M, m1, m2⟩ := mach_col ht ha
  have hd := delta_col ha
  have hth := theta_col ha
  have e1 := hd.2.1
  have e2 := m2.2.1
  constructor
  · obtain ⟨y, y1⟩ := einsum_ok (r := 3) (c := 3) (n := n) (coef := o.fi) h9
      (fun j k => (((reals n alt).col.map (· * ft)).map fun x => pressure npNR x 0.0 / p0).get k 0 ^ j)
      (fun i k => M.get k 0 ^ i)
    unfold FuelFlow.idle
    simp only [m1, need, if_true, bind, Except.bind, pure, Except.pure, e1, e2]
    simp only [y1, calc_zero hl y hd hth]
  · obtain ⟨g, g1, g2⟩ := op2_col (fun r v => npNR.arctan2 (r * Aero.fpm) v) hw.vals
      (ht.map (· * kts)).vals (.inl hw.2.1)
    obtain ⟨D, d1, d2⟩ := clean_col ⟨h15, h1, h2⟩ hm.col ht.col ha.col h0
    obtain ⟨x, x1, x2⟩ := op2_col (fun m g => m * Aero.g0 * npNR.sin g) hm.vals g2.vals (.inl hm.2.1)
    obtain ⟨T, t1, t2⟩ := op2_col (· + ·) d2.toScalar.vals x2.vals (.inl d2.toScalar.2.1)
    obtain ⟨c, c1, c2⟩ := op2_col (fun t d => t / (d * .val o.massRef * Aero.g0)) t2.vals hd.vals
      (.inl t2.2.1)
    have e3 := c2.2.1
    obtain ⟨y, y1⟩ := einsum_ok (r := 5) (c := 5) (n := n) (coef := o.f) h25
      (fun j k => c.get k 0 ^ j) (fun i k => M.get k 0 ^ i)
    unfold FuelFlow.enroute
    simp only [m1, g1, d1, x1, need, if_true, bind, Except.bind, pure, Except.pure]
    simp only [t1, c1, e3, e2, y1, calc_zero hl y hd hth]

/-- A file with a heating value of zero: a descent and a climb, both functions raise. -/
example : ∃ o : Bada4.FuelFlow, o.idle true (reals 2 fun _ => 400) (reals 2 fun _ => 30000) =
      .error .zeroDivision ∧
    o.enroute true (reals 2 fun _ => 60000) (reals 2 fun _ => 400) (reals 2 fun _ => 30000)
      (Nd.vec 2 fun i => val (1000 - 2000 * i)) = .error .zeroDivision :=
  ⟨{ thrust := ⟨1, [], [], (0, 0), ([], []), ([], [])⟩
     drag := ⟨0, List.replicate 15 0, 0.8, 100⟩
     massRef := 1
     f := 0 :: 1 :: List.replicate 23 0
     fi := 1 :: List.replicate 8 0
     lhv := 0 },
   C111_zero_heating _ (by simp) (by norm_num) (by norm_num) (by simp) (by simp) rfl 2 _ _ _ _
     (fun _ _ => by norm_num)⟩

end Verif.Props
