import Verif.Lemmas.Bada4Perf

/-!
# C109-C111: BADA4 thrust, drag and fuel flow once NumPy is supplied as `sci`
-/

namespace Verif.Props
open Verif Verif.Bada4 Verif.Tables Verif.Registry Verif.Arrays Verif.Aero NR

/-- A list of `n` real numbers as an argument. -/
def reals (n : ℕ) (u : ℕ → ℝ) : Nd := Nd.vec n fun i => val (u i)
/-- A real number as an argument or result. -/
def real1 (x : ℝ) : Nd := Nd.num (val x)

theorem toScalar_table {n : ℕ} {r : Nd} (hn : n ≠ 1) (h1 : r.rows = n) (h2 : r.cols = n) :
    r.toScalar = r := by
  unfold Nd.toScalar
  rw [if_neg]
  rw [h1, h2]
  intro h
  exact hn (Nat.eq_one_of_mul_eq_one_right h)

/-- **C109 (formula).** For numbers, thrust is the pressure ratio times reference weight times the
BADA4 coefficient; the temperature offset only selects the regime and does not enter the temperature.
Take-off thrust is climb thrust. -/
theorem C109_formula (o : Bada4.Thrust) (h36 : o.a.length = 36) (h12 : o.ti.length = 12)
    (hb : o.b.1.length = 36 ∧ o.b.2.length = 36) (hc : o.c.1.length = 45 ∧ o.c.2.length = 45)
    (tas alt dT M δ θ : ℝ) (hM : M = tas * 0.514444 / vsound np (alt * 0.3048) 0)
    (hδ : δ = pressure np (alt * 0.3048) 0 / 101325)
    (hθ : θ = temperature np (alt * 0.3048) 0 / 288.15) :
    open Classical in
    o.climb true (real1 tas) (real1 alt) (real1 dT) = .ok (real1 (δ * o.mref * 9.80665 *
      Spec.Bada4.ct o.a M (if dT ≤ o.kink.2 then Spec.Bada4.flat o.b.2 M δ
        else Spec.Bada4.hot o.c.2 M δ θ))) ∧
    o.cruise true (real1 tas) (real1 alt) (real1 dT) = .ok (real1 (δ * o.mref * 9.80665 *
      Spec.Bada4.ct o.a M (if dT ≤ o.kink.1 then Spec.Bada4.flat o.b.1 M δ
        else Spec.Bada4.hot o.c.1 M δ θ))) ∧
    o.takeoff true (real1 tas) (real1 alt) (real1 dT) =
      o.climb true (real1 tas) (real1 alt) (real1 dT) ∧
    o.idle true (real1 tas) (real1 alt) (real1 dT) = .ok (real1 (δ * o.mref * 9.80665 *
      Spec.Bada4.idleCt o.ti M δ)) := by
  have ho : o.Complete := ⟨h36, h12, hb.1, hb.2, hc.1, hc.2⟩
  have key : ∀ (x y z : Nd), Col 1 x.col (fun _ => val tas) → Col 1 y.col (fun _ => val alt) →
      z.rows * z.cols = 1 → z.get 0 0 = val dT → ∀ rating : Str,
      (upper rating = mcrz ∨ upper rating = mcmb ∨ upper rating = lidl) →
      o.rated true rating x y z = .ok (real1 (δ * o.mref * 9.80665 * coef o rating dT M δ θ)) := by
    intro x y z hx hy hz hz' rating hr
    obtain ⟨r, r1, r2, r3, r4⟩ := rated_table ho hx hy hz hz' rating hr
    rw [r1]
    unfold Nd.toScalar
    rw [if_pos (by rw [r2, r3]), r4 0 one_pos 0 one_pos, hM, hδ, hθ]
    rfl
  have k := key (real1 tas) (real1 alt) (real1 dT) (col_num (val tas)) (col_num (val alt)) rfl rfl
  have u1 : upper mcmb = mcmb := by decide
  have u2 : upper mcrz = mcrz := by decide
  have u3 : upper lidl = lidl := by decide
  have n1 : mcmb ≠ lidl := by decide
  have n2 : mcrz ≠ lidl := by decide
  have n3 : mcmb ≠ mcrz := by decide
  refine ⟨?_, ?_, ?_, ?_⟩
  · refine (k mcmb (.inr (.inl u1))).trans ?_
    unfold coef
    rw [u1, if_neg n1]
    simp only [if_neg n3]
  · refine (k mcrz (.inl u2)).trans ?_
    unfold coef
    rw [u2, if_neg n2]
    simp only [if_true]
  · have h1 := k mcmb (.inr (.inl u1))
    have h2 := key (real1 tas).col (real1 alt).col (real1 dT).col (col_num (val tas)).col
      (col_num (val alt)).col rfl rfl mcmb (.inr (.inl u1))
    unfold Bada4.Thrust.takeoff Bada4.Thrust.climb
    rw [h2]
    refine Eq.trans ?_ h1.symm
    rfl
  · refine (k lidl (.inr (.inr u3))).trans ?_
    unfold coef
    rw [u3, if_pos rfl]

/-- **C109 (temperature offset).** Two offsets on the same side of the kink give the same climb,
take-off and cruise thrust, for any speed and altitude; idle thrust never depends on the offset. -/
theorem C109_offset (o : Bada4.Thrust) (tas alt : Nd) (d₁ d₂ : ℝ) :
    ((d₁ ≤ o.kink.2 ↔ d₂ ≤ o.kink.2) →
      o.climb true tas alt (real1 d₁) = o.climb true tas alt (real1 d₂) ∧
      o.takeoff true tas alt (real1 d₁) = o.takeoff true tas alt (real1 d₂)) ∧
    ((d₁ ≤ o.kink.1 ↔ d₂ ≤ o.kink.1) →
      o.cruise true tas alt (real1 d₁) = o.cruise true tas alt (real1 d₂)) ∧
    (∀ x y : Nd, o.idle true tas alt x = o.idle true tas alt y) := by
  have hi : ∀ mach h (x y : Nd), o.cT true mach h lidl x = o.cT true mach h lidl y := by
    intro mach h x y
    unfold Bada4.Thrust.cT
    have u3 : upper lidl = lidl := by decide
    simp only [u3, if_true]
  have hc : ∀ (rating : Str) mach h (x y : Nd), upper rating ≠ lidl → x.rows * x.cols = 1 →
      y.rows * y.cols = 1 → x.get 0 0 = val d₁ → y.get 0 0 = val d₂ →
      (d₁ ≤ (if upper rating = mcrz then o.kink.1 else o.kink.2) ↔
        d₂ ≤ (if upper rating = mcrz then o.kink.1 else o.kink.2)) →
      o.cT true mach h rating x = o.cT true mach h rating y := by
    intro rating mach h x y hr h1 h2 h3 h4 hk
    unfold Bada4.Thrust.cT
    simp only [if_neg hr]
    have ht : truthLe x.col (if upper rating = mcrz then o.kink.1 else o.kink.2) =
        truthLe y.col (if upper rating = mcrz then o.kink.1 else o.kink.2) := by
      rw [truth_num h1 h3, truth_num h2 h4]
      congr 1
      simp only [hk]
    rw [ht]
  have hrd : ∀ (rating : Str) (x y : Nd), (∀ mach h, o.cT true mach h rating x = o.cT true mach h rating y) →
      ∀ tas alt, o.rated true rating tas alt x = o.rated true rating tas alt y := by
    intro rating x y h tas alt
    unfold Bada4.Thrust.rated
    simp only [h]
  have u1 : upper mcmb = mcmb := by decide
  have u2 : upper mcrz = mcrz := by decide
  have n1 : upper mcmb ≠ lidl := by decide
  have n2 : upper mcrz ≠ lidl := by decide
  have n3 : ¬ mcmb = mcrz := by decide
  refine ⟨fun h => ⟨?_, ?_⟩, fun h => ?_, fun x y => hrd _ _ _ (fun m h => hi m h x y) _ _⟩
  · exact hrd _ _ _ (fun m a => hc mcmb m a _ _ n1 rfl rfl rfl rfl (by rw [u1, if_neg n3]; exact h)) _ _
  · unfold Bada4.Thrust.takeoff Bada4.Thrust.climb
    rw [hrd mcmb (real1 d₁).col (real1 d₂).col
      (fun m a => hc mcmb m a _ _ n1 rfl rfl rfl rfl (by rw [u1, if_neg n3]; exact h)) _ _]
  · exact hrd _ _ _ (fun m a => hc mcrz m a _ _ n2 rfl rfl rfl rfl (by rw [u2, if_pos rfl]; exact h)) _ _

/-- **C109 (lists).** For lists of `n` speeds and altitudes, `n ≠ 1`, the result is not `n` thrusts but an
`n` by `n` table: entry `(i, j)` is the thrust for sample `j` times the ratio of the pressure of sample `i`
to that of sample `j`, so only the diagonal is as expected. -/
theorem C109_table (o : Bada4.Thrust) (h36 : o.a.length = 36) (h12 : o.ti.length = 12)
    (hb : o.b.1.length = 36 ∧ o.b.2.length = 36) (hc : o.c.1.length = 45 ∧ o.c.2.length = 45)
    (n : ℕ) (hn : n ≠ 1) (tas alt : ℕ → ℝ) (dT : ℝ)
    (f : Nd → Nd → Nd → Except PyError Nd)
    (hf : f = o.climb true ∨ f = o.cruise true ∨ f = o.idle true) :
    ∃ r, f (reals n tas) (reals n alt) (real1 dT) = .ok r ∧ r.rows = n ∧ r.cols = n ∧
      ∀ i < n, ∀ j < n, ∃ F, f (real1 (tas j)) (real1 (alt j)) (real1 dT) = .ok (real1 F) ∧
        r.get i j = val (F * (pressure np (alt i * 0.3048) 0 / pressure np (alt j * 0.3048) 0)) := by
  have ho : o.Complete := ⟨h36, h12, hb.1, hb.2, hc.1, hc.2⟩
  have key : ∀ rating : Str, (upper rating = mcrz ∨ upper rating = mcmb ∨ upper rating = lidl) →
      ∃ r, o.rated true rating (reals n tas) (reals n alt) (real1 dT) = .ok r ∧ r.rows = n ∧ r.cols = n ∧
      ∀ i < n, ∀ j < n, ∃ F, o.rated true rating (real1 (tas j)) (real1 (alt j)) (real1 dT) =
          .ok (real1 F) ∧
        r.get i j = val (F * (pressure np (alt i * 0.3048) 0 / pressure np (alt j * 0.3048) 0)) := by
    intro rating hr
    obtain ⟨r, r1, r2, r3, r4⟩ := rated_table ho (col_vec n fun i => val (tas i))
      (col_vec n fun i => val (alt i)) (dT := real1 dT) rfl rfl rating hr
    refine ⟨r, ?_, r2, r3, fun i hi j hj => ?_⟩
    · refine r1.trans ?_
      rw [toScalar_table hn r2 r3]
    · obtain ⟨s, s1, s2, s3, s4⟩ := rated_table ho (col_num (val (tas j))) (col_num (val (alt j)))
        (dT := real1 dT) rfl rfl rating hr
      refine ⟨deltaOf (alt j) * o.mref * 9.80665 * coef o rating dT (machOf (tas j) (alt j))
        (deltaOf (alt j)) (thetaOf (alt j)), ?_, ?_⟩
      · refine s1.trans ?_
        unfold Nd.toScalar
        rw [if_pos (by rw [s2, s3]), s4 0 one_pos 0 one_pos]
        rfl
      · rw [r4 i hi j hj]
        congr 1
        have p1 := (pressure_pos (alt j * 0.3048) 0).ne'
        generalize coef o rating dT (machOf (tas j) (alt j)) (deltaOf (alt j)) (thetaOf (alt j)) = k
        unfold deltaOf
        generalize pressure np (alt j * 0.3048) 0 = p at p1 ⊢
        field_simp
  rcases hf with rfl | rfl | rfl
  · exact key mcmb (by decide)
  · exact key mcrz (by decide)
  · exact key lidl (by decide)

/-- **C109 (lists of offsets).** A list of temperature offsets raises ValueError in `climb`, `cruise` and
`takeoff`, unless it has one element. -/
theorem C109_offset_list (o : Bada4.Thrust) (tas alt : ℝ) (n : ℕ) (hn : n ≠ 1) (dT : ℕ → ℝ) :
    o.climb true (real1 tas) (real1 alt) (reals n dT) = .error .valueError ∧
    o.cruise true (real1 tas) (real1 alt) (reals n dT) = .error .valueError ∧
    o.takeoff true (real1 tas) (real1 alt) (reals n dT) = .error .valueError := by
  have key : ∀ (rating : Str) (x y z : Nd), upper rating = mcrz ∨ upper rating = mcmb →
      x.rows * x.cols = 1 → y.rows * y.cols = 1 → z.rows * z.cols = n →
      o.rated true rating x y z = .error .valueError := by
    intro rating x y z hr hx hy hz
    have hl : upper rating ≠ lidl := by
      rcases hr with h | h <;> rw [h] <;> decide
    have hr' : upper rating = mcrz ∨ upper rating = mcmb ∨ upper rating = lidl := by
      rcases hr with h | h
      · exact .inl h
      · exact .inr (.inl h)
    have hc : ∀ m h, o.cT true m h rating z = .error .valueError := by
      intro m h
      unfold Bada4.Thrust.cT
      simp only [if_neg (not_not.2 hr'), if_neg hl]
      have : ∀ k, truthLe z.col k = .error .valueError := by
        intro k
        unfold truthLe
        rw [if_neg]
        simp only [Nd.col, mul_one, hz]
        exact hn
      rw [this]
      rfl
    unfold Bada4.Thrust.rated
    have h1 : bdim (x.rows * x.cols) (y.rows * y.cols) = .ok 1 := by rw [hx, hy]; rfl
    simp only [bind, Except.bind, op2, Nd.map, Nd.col, h1, bdim_same, pure, Except.pure, hc]
  have hs : (reals n dT).rows * (reals n dT).cols = n := one_mul n
  have hs' : (reals n dT).col.rows * (reals n dT).col.cols = n := by
    simp [reals, Nd.col, Nd.vec]
  refine ⟨key mcmb _ _ _ (by decide) rfl rfl hs, key mcrz _ _ _ (by decide) rfl rfl hs, ?_⟩
  unfold Bada4.Thrust.takeoff Bada4.Thrust.climb
  rw [key mcmb (real1 tas).col (real1 alt).col _ (by decide) rfl rfl hs']
  rfl

/-- **C109 (lists of different lengths).** Speeds and altitudes in lists of different lengths, neither of
them 1, raise ValueError in every thrust method. -/
theorem C109_lengths (o : Bada4.Thrust) (tas alt : ℕ → ℝ) (m n : ℕ) (hm : m ≠ 1) (hn : n ≠ 1)
    (hmn : m ≠ n) (dT : Nd) :
    o.climb true (reals m tas) (reals n alt) dT = .error .valueError ∧
    o.cruise true (reals m tas) (reals n alt) dT = .error .valueError ∧
    o.takeoff true (reals m tas) (reals n alt) dT = .error .valueError ∧
    o.idle true (reals m tas) (reals n alt) dT = .error .valueError := by
  have key : ∀ (rating : Str) (x y z : Nd), x.rows * x.cols = m → y.rows * y.cols = n →
      o.rated true rating x y z = .error .valueError := by
    intro rating x y z hx hy
    unfold Bada4.Thrust.rated
    have h1 : bdim (x.rows * x.cols) (y.rows * y.cols) = .error .valueError := by
      rw [hx, hy]; unfold bdim; rw [if_neg hm, if_neg (by omega)]
    simp only [bind, Except.bind, op2, Nd.map, Nd.col, h1]
  have hs : ∀ k u, (reals k u).rows * (reals k u).cols = k := fun k u => one_mul k
  refine ⟨key mcmb _ _ _ (hs _ _) (hs _ _), key mcrz _ _ _ (hs _ _) (hs _ _), ?_,
    key lidl _ _ _ (hs _ _) (hs _ _)⟩
  unfold Bada4.Thrust.takeoff Bada4.Thrust.climb
  rw [key mcmb (reals m tas).col (reals n alt).col dT.col (by simp [reals, Nd.col, Nd.vec])
    (by simp [reals, Nd.col, Nd.vec])]
  rfl

/-- Two speeds with three altitudes. -/
example (o : Bada4.Thrust) : o.climb true (reals 2 fun _ => 250) (reals 3 fun _ => 10000) (real1 0) =
    .error .valueError :=
  (C109_lengths o _ _ 2 3 (by norm_num) (by norm_num) (by norm_num) _).1

/-- An engine with a constant coefficient of 0.3: positive climb thrust at 250 kt and 10000 ft. -/
example : ∃ o : Bada4.Thrust, ∃ F, o.climb true (real1 250) (real1 10000) (real1 0) = .ok (real1 F) ∧
    0 < F := by
  let o : Bada4.Thrust := ⟨60000, 0.3 :: List.replicate 35 0, List.replicate 12 0, (10, 10),
    (List.replicate 36 1, List.replicate 36 1), (List.replicate 45 1, List.replicate 45 1)⟩
  have h := (C109_formula o (by simp [o]) (by simp [o]) (by simp [o]) (by simp [o]) 250 10000 0 _ _ _
    rfl rfl rfl).1
  refine ⟨o, _, h, ?_⟩
  have hp := pressure_pos (10000 * 0.3048) 0
  have hc : ∀ M x, Spec.Bada4.ct o.a M x = 0.3 := by
    intro M x
    unfold Spec.Bada4.ct Spec.Bada4.nth
    simp [Finset.sum_range_succ, o, List.replicate]
  rw [hc]
  simp only [o]
  positivity

/-! ### Drag -/

theorem clean_num {o : Bada4.Drag} (ho : o.Complete) (mass tas alt : ℝ) (h0 : 0 ≤ tas) :
    o.clean true (real1 mass) (real1 tas) (real1 alt) = .ok (real1 (dragOf o mass tas alt)) := by
  obtain ⟨r, r1, r2⟩ := clean_col ho (col_num (val mass)) (col_num (val tas)) (col_num (val alt))
    (fun _ _ => h0)
  exact r1.trans (by rw [toScalar_one r2]; rfl)

/-- **C110 (formula).** For numbers, drag is the BADA4 drag coefficient times dynamic pressure times
area, the lift coefficient being that of level flight with the product of dynamic pressure and area at
least 0.001 N. -/
theorem C110_formula (o : Bada4.Drag) (h15 : 15 ≤ o.d.length) (h1 : o.machMax < 1) (h2 : -0.99 < o.machMax)
    (mass tas alt M q : ℝ) (h0 : 0 ≤ tas) (hM : M = tas * 0.514444 / vsound np (alt * 0.3048) 0)
    (hq : q = 1 / 2 * density np (alt * 0.3048) 0 * (tas * 0.514444) ^ 2 * o.area) :
    o.clean true (real1 mass) (real1 tas) (real1 alt) =
      .ok (real1 (Spec.Bada4.cdAny o.scalar o.d o.machMax (mass * 9.80665 / max q 0.001) M * q)) := by
  rw [clean_num ⟨h15, h1, h2⟩ mass tas alt h0]
  unfold dragOf qsOf machOf
  rw [hM, hq]
  norm_num

/-- **C110 (lists).** For lists of samples, drag is computed sample by sample. -/
theorem C110_lists (o : Bada4.Drag) (h15 : 15 ≤ o.d.length) (h1 : o.machMax < 1) (h2 : -0.99 < o.machMax)
    (n : ℕ) (mass tas alt : ℕ → ℝ) (h0 : ∀ i < n, 0 ≤ tas i) :
    ∃ r, o.clean true (reals n mass) (reals n tas) (reals n alt) = .ok r ∧ r.rows = n ∧ r.cols = 1 ∧
      ∀ i < n, o.clean true (real1 (mass i)) (real1 (tas i)) (real1 (alt i)) = .ok (.num (r.get i 0)) := by
  obtain ⟨r, r1, r2⟩ := clean_col ⟨h15, h1, h2⟩ (col_vec n fun i => val (mass i))
    (col_vec n fun i => val (tas i)) (col_vec n fun i => val (alt i)) h0
  refine ⟨r.toScalar, r1, r2.toScalar.2.1, r2.toScalar.1, fun i hi => ?_⟩
  rw [r2.toScalar.2.2 i hi]
  exact clean_num ⟨h15, h1, h2⟩ _ _ _ (h0 i hi)

/-- The drag coefficient without case distinction. -/
theorem cdAny_eq (s : ℝ) (d : List ℝ) (X CL M : ℝ) : Spec.Bada4.cdAny s d X CL M =
    Spec.Bada4.cd s d CL (min M X) + (((max M X - (X - 0.01)) / 0.01) ^ (3 / 2 : ℝ) - 1) *
      (Spec.Bada4.cd s d CL X - Spec.Bada4.cd s d CL (X - 0.01)) := by
  unfold Spec.Bada4.cdAny
  split_ifs with h
  · rw [min_eq_left h.le, max_eq_right h.le]
    have : ((X - (X - 0.01)) / 0.01 : ℝ) = 1 := by norm_num
    rw [this, Real.one_rpow]
    ring
  · push Not at h
    rw [min_eq_right h, max_eq_left h]
    ring

theorem cd_continuous {ι : Type*} [TopologicalSpace ι] {s : Set ι} (k : ℝ) (d : List ℝ) {f g : ι → ℝ}
    (hf : ContinuousOn f s) (hg : ContinuousOn g s) (hg1 : ∀ x ∈ s, g x ^ 2 < 1) :
    ContinuousOn (fun x => Spec.Bada4.cd k d (f x) (g x)) s := by
  have hm : ContinuousOn (fun x => 1 / Real.sqrt (1 - g x ^ 2)) s := by
    refine continuousOn_const.div ?_ fun x hx => ?_
    · exact Real.continuous_sqrt.comp_continuousOn (continuousOn_const.sub (hg.pow 2))
    · exact (Real.sqrt_pos.2 (by linarith [hg1 x hx])).ne'
  unfold Spec.Bada4.cd
  refine continuousOn_const.mul (ContinuousOn.add (ContinuousOn.add ?_ (ContinuousOn.mul ?_ (hf.pow 2)))
    (ContinuousOn.mul (continuousOn_const.add ?_) (hf.pow 6)))
  all_goals
    refine continuousOn_finsetSum _ fun i _ => continuousOn_const.mul (hm.pow _)

/-- **C110 (no step).** At fixed mass and altitude drag is a continuous function of the speed, also where
the maximum Mach number and Mach 1 are exceeded, and it vanishes at zero speed. -/
theorem C110_continuous (o : Bada4.Drag) (h15 : 15 ≤ o.d.length) (h1 : o.machMax < 1)
    (h2 : 0 ≤ o.machMax) (mass alt : ℝ) : ∃ D : ℝ → ℝ,
      (∀ tas, 0 ≤ tas → o.clean true (real1 mass) (real1 tas) (real1 alt) = .ok (real1 (D tas))) ∧
      ContinuousOn D (Set.Ici 0) ∧ D 0 = 0 := by
  refine ⟨fun tas => dragOf o mass tas alt, fun tas h0 => clean_num ⟨h15, h1, by linarith⟩ mass tas alt h0, ?_, ?_⟩
  · have hq : Continuous fun tas => qsOf o.area tas alt := by
      unfold qsOf; fun_prop
    have hM : Continuous fun tas => machOf tas alt := by
      unfold machOf; fun_prop
    have hC : Continuous fun tas => mass * 9.80665 / max (qsOf o.area tas alt) 0.001 := by
      refine continuous_const.div (hq.max continuous_const) fun tas => ?_
      exact ne_of_gt (lt_of_lt_of_le (by norm_num) (le_max_right _ _))
    have q1 : o.machMax ^ 2 < 1 := by nlinarith
    have q2 : (o.machMax - 0.01) ^ 2 < 1 := by nlinarith
    unfold dragOf
    refine ContinuousOn.mul ?_ hq.continuousOn
    simp only [cdAny_eq]
    refine ContinuousOn.add ?_ (ContinuousOn.mul ?_ (ContinuousOn.sub ?_ ?_))
    · refine cd_continuous _ _ hC.continuousOn (hM.min continuous_const).continuousOn fun t ht => ?_
      have a1 : 0 ≤ min (machOf t alt) o.machMax := le_min (machOf_nonneg ht alt) h2
      have a2 : min (machOf t alt) o.machMax ≤ o.machMax := min_le_right _ _
      nlinarith
    · refine ContinuousOn.sub ?_ continuousOn_const
      refine Continuous.continuousOn ?_
      refine Continuous.rpow_const ?_ fun _ => .inr (by norm_num)
      exact (((hM.max continuous_const).sub continuous_const).div_const _)
    · exact cd_continuous _ _ hC.continuousOn continuousOn_const fun _ _ => q1
    · exact cd_continuous _ _ hC.continuousOn continuousOn_const fun _ _ => q2
  · unfold dragOf qsOf
    norm_num

theorem cd_mono {s : ℝ} (hs : 0 ≤ s) {d : List ℝ} (hd : ∀ x ∈ d, 0 ≤ x) (CL : ℝ) {m₁ m₂ : ℝ} (h0 : 0 ≤ m₁)
    (h : m₁ ≤ m₂) (h2 : m₂ < 1) : Spec.Bada4.cd s d CL m₁ ≤ Spec.Bada4.cd s d CL m₂ := by
  have hn : ∀ k, 0 ≤ Spec.Bada4.nth d k := by
    intro k
    unfold Spec.Bada4.nth
    rw [List.getD_eq_getElem?_getD]
    by_cases hk : k < d.length
    · rw [List.getElem?_eq_getElem hk]; exact hd _ (List.getElem_mem hk)
    · rw [List.getElem?_eq_none (by omega)]; exact le_refl _
  have p2 : 0 < 1 - m₂ ^ 2 := by nlinarith
  have p1 : 1 - m₂ ^ 2 ≤ 1 - m₁ ^ 2 := by nlinarith
  have hm : 1 / Real.sqrt (1 - m₁ ^ 2) ≤ 1 / Real.sqrt (1 - m₂ ^ 2) :=
    one_div_le_one_div_of_le (Real.sqrt_pos.2 p2) (Real.sqrt_le_sqrt p1)
  have hm0 : 0 ≤ 1 / Real.sqrt (1 - m₁ ^ 2) := by positivity
  unfold Spec.Bada4.cd
  refine mul_le_mul_of_nonneg_left ?_ hs
  refine add_le_add (add_le_add ?_ (mul_le_mul_of_nonneg_right ?_ (by positivity)))
    (mul_le_mul_of_nonneg_right (add_le_add le_rfl ?_) (by positivity))
  all_goals
    refine Finset.sum_le_sum fun i _ => mul_le_mul_of_nonneg_left ?_ (hn _)
    exact pow_le_pow_left₀ hm0 hm _

/-- **C110 (compressibility).** With non-negative coefficients the drag coefficient never falls with the
Mach number, below, across and above the maximum Mach number. -/
theorem C110_compressibility (o : Bada4.Drag) (h15 : 15 ≤ o.d.length) (h1 : o.machMax < 1)
    (h2 : 0.01 ≤ o.machMax) (hs : 0 ≤ o.scalar) (hd : ∀ x ∈ o.d, 0 ≤ x) (CL M₁ M₂ : ℝ) (h0 : 0 ≤ M₁)
    (h : M₁ ≤ M₂) : ∃ c₁ c₂, o.cd true (real1 CL) (real1 M₁) = .ok (real1 c₁) ∧
      o.cd true (real1 CL) (real1 M₂) = .ok (real1 c₂) ∧ c₁ ≤ c₂ := by
  have key : ∀ M, 0 ≤ M → o.cd true (real1 CL) (real1 M) =
      .ok (real1 (Spec.Bada4.cdAny o.scalar o.d o.machMax CL M)) := by
    intro M hM
    have hcol : Col 1 (real1 M) fun _ => val M := ⟨rfl, rfl, fun _ _ => rfl⟩
    obtain ⟨r, r1, r2, r3⟩ := cd_col h15 (vals_num 1 (val CL)) hcol
    rw [cdAnyElem_val o h1 (by linarith) CL hM] at r2
    refine r1.trans ?_
    rw [← r3, toScalar_one r2]
    rfl
  refine ⟨_, _, key M₁ h0, key M₂ (h0.trans h), ?_⟩
  rw [cdAny_eq, cdAny_eq]
  have hup := cd_mono hs hd CL (m₁ := o.machMax - 0.01) (m₂ := o.machMax) (by linarith) (by linarith) h1
  refine add_le_add ?_ (mul_le_mul_of_nonneg_right ?_ (by linarith))
  · exact cd_mono hs hd CL (le_min h0 (by linarith)) (min_le_min_right _ h)
      (lt_of_le_of_lt (min_le_right _ _) h1)
  · refine sub_le_sub_right (Real.rpow_le_rpow ?_ ?_ (by norm_num)) _
    · have := le_max_right M₁ o.machMax
      apply div_nonneg <;> norm_num
    · refine div_le_div_of_nonneg_right ?_ (by norm_num)
      exact sub_le_sub_right (max_le_max_right _ h) _

/-- An aircraft with a constant drag coefficient of 0.02: positive drag at 450 kt and 10000 ft. -/
example : ∃ o : Bada4.Drag, ∃ D, o.clean true (real1 60000) (real1 450) (real1 10000) = .ok (real1 D) ∧
    0 < D := by
  let o : Bada4.Drag := ⟨1, 0.02 :: List.replicate 14 0, 0.82, 122⟩
  have h := C110_formula o (by simp [o]) (by norm_num [o]) (by norm_num [o]) 60000 450 10000 _ _
    (by norm_num) rfl rfl
  refine ⟨o, _, h, ?_⟩
  have hc : ∀ CL M, Spec.Bada4.cd o.scalar o.d CL M = 0.02 := by
    intro CL M
    unfold Spec.Bada4.cd Spec.Bada4.nth
    simp [Finset.sum_range_succ, o, List.replicate]
  have hr := density_pos (10000 * 0.3048) 0
  have hcd : ∀ CL M, Spec.Bada4.cdAny o.scalar o.d o.machMax CL M = 0.02 := by
    intro CL M
    unfold Spec.Bada4.cdAny
    simp only [hc]
    split_ifs <;> norm_num
  rw [hcd]
  simp only [o]
  positivity

/-! ### Fuel flow -/

theorem sin_gamma {w v : ℝ} (hv : 0 < v) : Real.sin (atan2R w v) = w / Real.sqrt (v ^ 2 + w ^ 2) := by
  have h := (Geo.cos_atan2 w v).2
  have : 0 < Real.sqrt (v ^ 2 + w ^ 2) := Real.sqrt_pos.2 (by positivity)
  rw [eq_div_iff this.ne']
  exact h

theorem enroute_num {o : Bada4.FuelFlow} (ho : o.Complete) (mass tas alt vs : ℝ) (h0 : 0 ≤ tas) :
    o.enroute true (real1 mass) (real1 tas) (real1 alt) (real1 vs) =
      .ok (real1 (enrouteOf o mass tas alt vs)) := by
  obtain ⟨r, r1, r2⟩ := enroute_col ho (col_num (val mass)) (col_num (val tas)) (col_num (val alt))
    (col_num (val vs)) (fun _ _ => h0)
  exact r1.trans (by rw [toScalar_one r2]; rfl)

theorem idle_num {o : Bada4.FuelFlow} (ho : o.Complete) (tas alt : ℝ) :
    o.idle true (real1 tas) (real1 alt) = .ok (real1 (idleOf o tas alt)) := by
  obtain ⟨r, r1, r2⟩ := idle_col ho.2.2.2.1 ho.2.2.1 (col_num (val tas)) (col_num (val alt))
  exact r1.trans (by rw [toScalar_one r2]; rfl)

/-- **C111 (formula).** Below -250 ft/min enroute fuel flow is the idle fuel flow. Otherwise it is the
BADA4 polynomial in Mach number and in the thrust coefficient that balances drag and the weight
component. -/
theorem C111_formula (o : Bada4.FuelFlow) (h15 : 15 ≤ o.drag.d.length) (h1 : o.drag.machMax < 1)
    (h2 : -0.99 < o.drag.machMax) (h25 : o.f.length = 25) (h9 : o.fi.length = 9) (hl : o.lhv ≠ 0)
    (hr : o.massRef ≠ 0) (mass tas alt vs M δ θ D : ℝ) (h0 : 0 < tas)
    (hM : M = tas * 0.514444 / vsound np (alt * 0.3048) 0)
    (hδ : δ = pressure np (alt * 0.3048) 0 / 101325)
    (hθ : θ = temperature np (alt * 0.3048) 0 / 288.15)
    (hD : o.drag.clean true (real1 mass) (real1 tas) (real1 alt) = .ok (real1 D)) :
    o.idle true (real1 tas) (real1 alt) = .ok (real1 (δ * Real.sqrt θ * o.massRef * 9.80665 * 340.293988 /
      o.lhv * Spec.Bada4.idleCf o.fi M δ)) ∧
    (vs < -250 → o.enroute true (real1 mass) (real1 tas) (real1 alt) (real1 vs) =
      o.idle true (real1 tas) (real1 alt)) ∧
    (-250 ≤ vs → o.enroute true (real1 mass) (real1 tas) (real1 alt) (real1 vs) =
      .ok (real1 (δ * Real.sqrt θ * o.massRef * 9.80665 * 340.293988 / o.lhv *
        Spec.Bada4.cf o.f M ((D + mass * 9.80665 * (vs * 0.00508 /
          Real.sqrt ((tas * 0.514444) ^ 2 + (vs * 0.00508) ^ 2))) / (δ * o.massRef * 9.80665))))) := by
  have ho : o.Complete := ⟨⟨h15, h1, h2⟩, h25, h9, hl, hr⟩
  have hD' : D = dragOf o.drag mass tas alt := by
    have := (clean_num ho.1 mass tas alt h0.le).symm.trans hD
    simp only [real1, Nd.num, Except.ok.injEq, Nd.mk.injEq, true_and] at this
    have := congrFun (congrFun this 0) 0
    exact (NR.val.inj this).symm
  refine ⟨?_, fun h => ?_, fun h => ?_⟩
  · rw [idle_num ho, hM, hδ, hθ]
    unfold idleOf flowOf
    rw [mul_one_div]
    rfl
  · rw [enroute_num ho mass tas alt vs h0.le, idle_num ho]
    unfold enrouteOf
    rw [if_pos h]
  · rw [enroute_num ho mass tas alt vs h0.le]
    unfold enrouteOf ctNeeded flowOf
    rw [if_neg (not_lt.2 h), hD', sin_gamma (by positivity), mul_one_div, hM, hδ, hθ]
    rfl

/-- **C111 (lists).** For lists of samples, fuel flow is computed sample by sample. -/
theorem C111_lists (o : Bada4.FuelFlow) (h15 : 15 ≤ o.drag.d.length) (h1 : o.drag.machMax < 1)
    (h2 : -0.99 < o.drag.machMax) (h25 : o.f.length = 25) (h9 : o.fi.length = 9) (hl : o.lhv ≠ 0)
    (hr : o.massRef ≠ 0) (n : ℕ) (mass tas alt vs : ℕ → ℝ) (h0 : ∀ i < n, 0 ≤ tas i) :
    ∃ r, o.enroute true (reals n mass) (reals n tas) (reals n alt) (reals n vs) = .ok r ∧ r.rows = n ∧
      r.cols = 1 ∧ ∀ i < n, o.enroute true (real1 (mass i)) (real1 (tas i)) (real1 (alt i)) (real1 (vs i)) =
        .ok (.num (r.get i 0)) := by
  have ho : o.Complete := ⟨⟨h15, h1, h2⟩, h25, h9, hl, hr⟩
  obtain ⟨r, r1, r2⟩ := enroute_col ho (col_vec n fun i => val (mass i)) (col_vec n fun i => val (tas i))
    (col_vec n fun i => val (alt i)) (col_vec n fun i => val (vs i)) h0
  refine ⟨r.toScalar, r1, r2.toScalar.2.1, r2.toScalar.1, fun i hi => ?_⟩
  rw [r2.toScalar.2.2 i hi]
  exact enroute_num ho _ _ _ _ (h0 i hi)

/-- **C111 (no lower limit).** Enroute fuel flow is not limited by the idle fuel flow: there is a model
with positive idle fuel flow everywhere whose enroute fuel flow is negative in every shallow descent. -/
theorem C111_not_limited : ∃ o : Bada4.FuelFlow, 15 ≤ o.drag.d.length ∧ o.drag.machMax < 1 ∧
    -0.99 < o.drag.machMax ∧ o.f.length = 25 ∧ o.fi.length = 9 ∧ o.lhv ≠ 0 ∧ o.massRef ≠ 0 ∧
    ∀ mass tas alt vs : ℝ, 0 < mass → 0 < tas → -250 ≤ vs → vs < 0 →
      ∃ F I, o.enroute true (real1 mass) (real1 tas) (real1 alt) (real1 vs) = .ok (real1 F) ∧
        o.idle true (real1 tas) (real1 alt) = .ok (real1 I) ∧ F < 0 ∧ 0 < I := by
  let o : Bada4.FuelFlow :=
    { thrust := ⟨1, [], [], (0, 0), ([], []), ([], [])⟩
      drag := ⟨0, List.replicate 15 0, 0.8, 100⟩
      massRef := 1
      f := 0 :: 1 :: List.replicate 23 0
      fi := 1 :: List.replicate 8 0
      lhv := 1 }
  have ho : o.Complete := ⟨⟨by simp [o], by norm_num [o], by norm_num [o]⟩, by simp [o], by simp [o],
    by norm_num [o], by norm_num [o]⟩
  refine ⟨o, by simp [o], by norm_num [o], by norm_num [o], by simp [o], by simp [o], by norm_num [o],
    by norm_num [o], fun mass tas alt vs hm ht h1 h2 => ?_⟩
  refine ⟨_, _, enroute_num ho mass tas alt vs ht.le, idle_num ho tas alt, ?_, ?_⟩
  · have hdrag : dragOf o.drag mass tas alt = 0 := by
      unfold dragOf
      have : ∀ CL M, Spec.Bada4.cd o.drag.scalar o.drag.d CL M = 0 := by
        intro CL M; unfold Spec.Bada4.cd; simp [o]
      unfold Spec.Bada4.cdAny
      simp [this]
    have hct : ctNeeded o mass tas alt vs < 0 := by
      unfold ctNeeded
      rw [hdrag, sin_gamma (by positivity)]
      have hd := deltaOf_pos alt
      refine div_neg_of_neg_of_pos ?_ (by simp only [o]; positivity)
      rw [zero_add]
      refine mul_neg_of_pos_of_neg (by positivity) (div_neg_of_neg_of_pos (by linarith) ?_)
      exact Real.sqrt_pos.2 (by positivity)
    have hcf : ∀ M C : ℝ, Spec.Bada4.cf o.f M C = C := by
      intro M C
      unfold Spec.Bada4.cf Spec.Bada4.nth
      simp [Finset.sum_range_succ, o, List.replicate]
    unfold enrouteOf
    rw [if_neg (not_lt.2 h1), hcf]
    unfold flowOf
    have hd := deltaOf_pos alt
    have hth := Real.sqrt_pos.2 (thetaOf_pos alt)
    refine mul_neg_of_pos_of_neg ?_ hct
    simp only [o]
    positivity
  · have hcf : ∀ M C : ℝ, Spec.Bada4.idleCf o.fi M C = 1 := by
      intro M C
      unfold Spec.Bada4.idleCf Spec.Bada4.nth
      simp [Finset.sum_range_succ, o, List.replicate]
    unfold idleOf flowOf
    rw [hcf]
    have hd := deltaOf_pos alt
    have hth := Real.sqrt_pos.2 (thetaOf_pos alt)
    simp only [o]
    positivity

end Verif.Props
