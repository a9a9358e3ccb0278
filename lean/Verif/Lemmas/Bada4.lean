import Verif.Model.Bada4
import Verif.Spec.Bada4
import Verif.Lemmas.Arrays
import Verif.Lemmas.Defined

/-!
# BADA4 methods on `n` samples
-/

namespace Verif.Bada4
open Verif Verif.Arrays Verif.Defined Verif.Aero Verif.Registry Verif.Tables NR Spec.Bada4

theorem bind_of {ε α β : Type} {x : Except ε α} {v : α} (h : x = .ok v) (f : α → Except ε β) :
    (x >>= f) = f v := by rw [h]; rfl

/-- Mach number from knots and feet. -/
noncomputable def machOf (tas alt : ℝ) : ℝ := tas * 0.514444 / vsound np (alt * 0.3048) 0
/-- Pressure ratio from feet. -/
noncomputable def deltaOf (alt : ℝ) : ℝ := pressure np (alt * 0.3048) 0 / 101325
/-- Temperature ratio from feet. -/
noncomputable def thetaOf (alt : ℝ) : ℝ := temperature np (alt * 0.3048) 0 / 288.15

theorem zero_sci : (0.0 : NR) = val 0 := by
  show val (0.0 : ℝ) = val 0; norm_num

theorem mach_col {n : ℕ} {tas alt : Nd} {t a : ℕ → ℝ} (ht : Col n tas fun i => val (t i))
    (ha : Col n alt fun i => val (a i)) :
    ∃ m, op2 (fun v h => tas2mach npNR v h 0.0) (tas.map (· * kts)) (alt.map (· * ft)) = .ok m ∧
      Col n m fun i => val (machOf (t i) (a i)) := by
  obtain ⟨m, h1, h2⟩ := op2_col (fun v h => tas2mach npNR v h 0.0) (ht.map (· * kts)).vals
    (ha.map (· * ft)).vals (.inl (ht.map _).2.1)
  refine ⟨m, h1, h2.congr fun i _ => ?_⟩
  rw [zero_sci]
  exact tas2mach_def (t i * 0.514444) (a i * 0.3048) 0

theorem delta_elem (x : ℝ) : pressure npNR (val x * ft) 0.0 / p0 = val (deltaOf x) := by
  rw [zero_sci, show (val x * ft : NR) = val (x * 0.3048) from rfl, pressure_def]
  show val _ / val (101325.0 : ℝ) = _
  rw [val_div _ _ (by norm_num)]
  unfold deltaOf
  norm_num

theorem theta_elem (x : ℝ) : temperature npNR (val x * ft) 0.0 / T0 = val (thetaOf x) := by
  rw [zero_sci, show (val x * ft : NR) = val (x * 0.3048) from rfl, temperature_def]
  show val _ / val (288.15 : ℝ) = _
  rw [val_div _ _ (by norm_num)]
  rfl

theorem delta_col {n : ℕ} {alt : Nd} {a : ℕ → ℝ} (ha : Col n alt fun i => val (a i)) :
    Col n ((alt.map (· * ft)).map fun x => pressure npNR x 0.0 / p0) fun i => val (deltaOf (a i)) :=
  ((ha.map (· * ft)).map _).congr fun i _ => delta_elem (a i)

theorem theta_col {n : ℕ} {alt : Nd} {a : ℕ → ℝ} (ha : Col n alt fun i => val (a i)) :
    Col n ((alt.map (· * ft)).map fun x => temperature npNR x 0.0 / T0) fun i => val (thetaOf (a i)) :=
  ((ha.map (· * ft)).map _).congr fun i _ => theta_elem (a i)

theorem deltaOf_pos (alt : ℝ) : 0 < deltaOf alt := div_pos (pressure_pos _ _) (by norm_num)
theorem thetaOf_pos (alt : ℝ) : 0 < thetaOf alt := div_pos (temperature_pos _ _) (by norm_num)

/-- The coefficient computed by `cT` for one sample. -/
noncomputable def coef (o : Thrust) (rating : Str) (dT M δ θ : ℝ) : ℝ :=
  open Classical in
  if upper rating = lidl then idleCt o.ti M δ
  else ct o.a M (if dT ≤ (if upper rating = mcrz then o.kink.1 else o.kink.2) then
      flat (if upper rating = mcrz then o.b.1 else o.b.2) M δ
    else hot (if upper rating = mcrz then o.c.1 else o.c.2) M δ θ)

/-- The tables have the sizes of a BADA4 model. -/
def Thrust.Complete (o : Thrust) : Prop :=
  o.a.length = 36 ∧ o.ti.length = 12 ∧ o.b.1.length = 36 ∧ o.b.2.length = 36 ∧ o.c.1.length = 45 ∧
    o.c.2.length = 45

theorem truth_num {dT : Nd} {t : ℝ} (h : dT.rows * dT.cols = 1) (hg : dT.get 0 0 = val t) (k : ℝ) :
    truthLe dT.col k = .ok (open Classical in decide (t ≤ k)) := by
  unfold truthLe
  have h1 : dT.col.rows * dT.col.cols = 1 := by simpa [Nd.col] using h
  have h2 : dT.col.get 0 0 = val t := by simpa [Nd.col] using hg
  rw [if_pos h1, h2]
  rfl

theorem idle_sum (ti : List ℝ) (M δ : ℝ) :
    ∑ i ∈ Finset.range 3, ∑ j ∈ Finset.range 4,
      ti.getD (i * 4 + j) 0 * (if j = 0 then 1 / δ else δ ^ (j - 1)) * M ^ i = idleCt ti M δ := by
  unfold idleCt nth
  refine Finset.sum_congr rfl fun i _ => ?_
  simp only [Finset.sum_range_succ, Finset.sum_range_zero, mul_comm i 4]
  norm_num
  try ring

theorem flat_sum (b : List ℝ) (x y : ℝ) :
    ∑ i ∈ Finset.range 6, ∑ j ∈ Finset.range 6, b.getD (i * 6 + j) 0 * x ^ j * y ^ i = flat b x y := by
  unfold flat nth
  simp only [mul_comm _ 6]

theorem hot_sum (c : List ℝ) (M δ θ : ℝ) :
    ∑ i ∈ Finset.range 9, ∑ j ∈ Finset.range 5, c.getD (i * 5 + j) 0 * M ^ j *
      (if i < 5 then (θ * (1 + 0.2 * M ^ 2)) ^ i else δ ^ (i - 4)) = hot c M δ θ := by
  unfold hot nth
  rw [show (9 : ℕ) = 5 + 4 from rfl, Finset.sum_range_add]
  refine congrArg₂ (· + ·) ?_ ?_
  · refine Finset.sum_congr rfl fun i hi => ?_
    rw [if_pos (Finset.mem_range.1 hi), mul_comm i 5]
  · refine Finset.sum_congr rfl fun i hi => ?_
    rw [if_neg (by omega), show (5 + i) * 5 = 25 + 5 * i by ring, show 5 + i - 4 = i + 1 by omega]

theorem cT_row {n : ℕ} {o : Thrust} (ho : o.Complete) {mach alt dT : Nd} {M a : ℕ → ℝ} {t : ℝ}
    (hm : Col n mach fun i => val (M i)) (ha : Col n alt fun i => val (a i))
    (hs : dT.rows * dT.cols = 1) (hg : dT.get 0 0 = val t) (rating : Str)
    (hr : upper rating = mcrz ∨ upper rating = mcmb ∨ upper rating = lidl) :
    ∃ r, o.cT true mach (alt.map (· * ft)) rating dT = .ok r ∧
      Row n r fun i => val (coef o rating t (M i) (deltaOf (a i)) (thetaOf (a i))) := by
  obtain ⟨la, lt, lb1, lb2, lc1, lc2⟩ := ho
  have hm' := hm.col
  have hh : Col n (alt.map (· * ft)).col fun i => val (a i) * ft := (ha.map (· * ft)).col
  have hd : Col n ((alt.map (· * ft)).col.map fun x => pressure npNR x 0.0 / p0)
      fun i => val (deltaOf (a i)) := (hh.map _).congr fun i _ => delta_elem (a i)
  have hth : Col n ((alt.map (· * ft)).col.map fun x => temperature npNR x 0.0 / T0)
      fun i => val (thetaOf (a i)) := (hh.map _).congr fun i _ => theta_elem (a i)
  have mpow : ∀ c, ∀ j < c, ∀ k < n, mach.col.get k 0 ^ j = val (M k ^ j) := by
    intro c j _ k hk
    rw [hm'.2.2 k hk, npow_val]
  unfold Thrust.cT
  simp only [if_neg (not_not.2 hr), need, if_true]
  generalize ((alt.map (· * ft)).col.map fun x => pressure npNR x 0.0 / p0) = delta at hd ⊢
  generalize ((alt.map (· * ft)).col.map fun x => temperature npNR x 0.0 / T0) = theta at hth ⊢
  by_cases hl : upper rating = lidl
  · rw [if_pos hl]
    obtain ⟨r, h1, h2⟩ := einsum_row (n := n) (r := 3) (c := 4) lt
      (p := fun j k => if j = 0 then 1.0 / delta.get k 0 else delta.get k 0 ^ (j - 1))
      (p' := fun j k => if j = 0 then 1 / deltaOf (a k) else deltaOf (a k) ^ (j - 1))
      (q := fun i k => mach.col.get k 0 ^ i) (q' := fun i k => M k ^ i)
      (by
        intro j hj k hk
        rw [hd.2.2 k hk]
        split_ifs with h
        · show val (1.0 : ℝ) / _ = _
          rw [val_div _ _ (deltaOf_pos _).ne']; norm_num
        · rw [npow_val])
      (mpow 3)
    refine ⟨r.toScalar, ?_, h2.toScalar.congr fun i _ => ?_⟩
    · rw [hd.2.1, hm'.2.1]
      simp only [bind, Except.bind, h1, pure, Except.pure]
    · unfold coef
      rw [if_pos hl, idle_sum]
  · rw [if_neg hl, bind_of (truth_num hs hg _)]
    have lb : (if upper rating = mcrz then o.b.1 else o.b.2).length = 6 * 6 := by
      split_ifs <;> assumption
    have lc : (if upper rating = mcrz then o.c.1 else o.c.2).length = 9 * 5 := by
      split_ifs <;> assumption
    have hco : ∀ i, coef o rating t (M i) (deltaOf (a i)) (thetaOf (a i)) =
        ct o.a (M i) (open Classical in if t ≤ (if upper rating = mcrz then o.kink.1 else o.kink.2) then
      flat (if upper rating = mcrz then o.b.1 else o.b.2) (M i) (deltaOf (a i))
    else hot (if upper rating = mcrz then o.c.1 else o.c.2) (M i) (deltaOf (a i)) (thetaOf (a i))) := by
      intro i
      unfold coef
      rw [if_neg hl]
    simp only [hco]
    generalize (if upper rating = mcrz then o.b.1 else o.b.2) = bb at lb ⊢
    generalize (if upper rating = mcrz then o.c.1 else o.c.2) = cc at lc ⊢
    generalize (if upper rating = mcrz then o.kink.1 else o.kink.2) = kk
    have last : ∀ (x : Nd) (X : ℕ → ℝ), Row n x (fun i => val (X i)) →
        ∃ r, einsum 6 6 o.a n (fun j k => mach.col.get k 0 ^ j) x.cols (fun i k => x.get 0 k ^ i) = .ok r ∧
          Row n r fun i => val (ct o.a (M i) (X i)) := by
      intro x X hx
      rw [hx.2.1]
      obtain ⟨r, h1, h2⟩ := einsum_row (n := n) (r := 6) (c := 6) la (p := fun j k => mach.col.get k 0 ^ j)
        (p' := fun j k => M k ^ j) (q := fun i k => x.get 0 k ^ i) (q' := fun i k => X k ^ i) (mpow 6)
        (by intro i _ k hk; rw [hx.2.2 k hk, npow_val])
      refine ⟨r, h1, h2.congr fun i _ => ?_⟩
      rw [flat_sum]; rfl
    rw [hm'.2.1, hd.2.1]
    by_cases hk : t ≤ kk
    · obtain ⟨x, h1, h2⟩ := einsum_row (n := n) (r := 6) (c := 6) lb (p := fun j k => mach.col.get k 0 ^ j)
        (p' := fun j k => M k ^ j) (q := fun i k => delta.get k 0 ^ i) (q' := fun i k => deltaOf (a k) ^ i)
        (mpow 6) (by intro i _ k hk; rw [hd.2.2 k hk, npow_val])
      obtain ⟨r, h3, h4⟩ := last x (fun i => flat bb (M i) (deltaOf (a i)))
        (h2.congr fun i _ => by rw [flat_sum])
      refine ⟨r.toScalar, ?_, h4.toScalar.congr fun i _ => by rw [if_pos hk]⟩
      simp only [bind, Except.bind, decide_eq_true hk, if_true, h1, h3, pure, Except.pure]
    · obtain ⟨tt, e1, e2⟩ := op2_col (fun t m => t * (1.0 + m ^ 2 * (1.4 - 1.0) / 2.0)) hth.vals hm'.vals
        (.inl hth.2.1)
      have e3 : Col n tt fun i => val (thetaOf (a i) * (1 + 0.2 * M i ^ 2)) := by
        refine e2.congr fun i _ => ?_
        rw [npow_val]
        show _ * (val (1.0 : ℝ) + _ * (val (1.4 : ℝ) - val (1.0 : ℝ)) / val (2.0 : ℝ)) = _
        rw [val_sub, val_mul, val_div _ _ (by norm_num), val_add, val_mul]
        congr 2
        norm_num
        ring
      obtain ⟨x, h1, h2⟩ := einsum_row (n := n) (r := 9) (c := 5) lc (p := fun j k => mach.col.get k 0 ^ j)
        (p' := fun j k => M k ^ j)
        (q := fun i k => if i < 5 then tt.get k 0 ^ i else delta.get k 0 ^ (i - 4))
        (q' := fun i k => if i < 5 then (thetaOf (a k) * (1 + 0.2 * M k ^ 2)) ^ i
          else deltaOf (a k) ^ (i - 4))
        (mpow 5) (by
          intro i _ k hk
          split_ifs
          · rw [e3.2.2 k hk, npow_val]
          · rw [hd.2.2 k hk, npow_val])
      obtain ⟨r, h3, h4⟩ := last x (fun i => hot cc (M i) (deltaOf (a i)) (thetaOf (a i)))
        (h2.congr fun i _ => by rw [hot_sum])
      refine ⟨r.toScalar, ?_, h4.toScalar.congr fun i _ => by rw [if_neg hk]⟩
      have hrow : tt.rows = n := e3.2.1
      simp only [bind, Except.bind, decide_eq_false hk, Bool.false_eq_true, if_false, e1, hrow, ne_eq,
        not_true_eq_false, h1, h3, pure, Except.pure]

/-- A rated thrust for `n` samples: a table with the pressure ratio of the row and the coefficient of
the column. -/
theorem rated_table {n : ℕ} {o : Thrust} (ho : o.Complete) {tas alt dT : Nd} {ts a : ℕ → ℝ} {t : ℝ}
    (ht : Col n tas.col fun i => val (ts i)) (ha : Col n alt.col fun i => val (a i))
    (hs : dT.rows * dT.cols = 1) (hg : dT.get 0 0 = val t) (rating : Str)
    (hr : upper rating = mcrz ∨ upper rating = mcmb ∨ upper rating = lidl) :
    ∃ r : Nd, o.rated true rating tas alt dT = .ok r.toScalar ∧ r.rows = n ∧ r.cols = n ∧
      ∀ i < n, ∀ j < n, r.get i j = val (deltaOf (a i) * o.mref * 9.80665 *
        coef o rating t (machOf (ts j) (a j)) (deltaOf (a j)) (thetaOf (a j))) := by
  obtain ⟨m, m1, m2⟩ := mach_col ht ha
  obtain ⟨c, c1, c2⟩ := cT_row ho m2 ha hs hg rating hr
  obtain ⟨r, r1, r2, r3, r4⟩ := op2_table (fun d c => d * .val o.mref * g0 * c) (delta_col ha) c2
  refine ⟨r, ?_, r2, r3, fun i hi j hj => (r4 i hi j hj).trans rfl⟩
  unfold Thrust.rated
  simp only [bind, Except.bind, m1, c1, r1, pure, Except.pure]

end Verif.Bada4
