import Verif.Props.GenFloat
import Verif.Lemmas.EnvelopeFlight

/-!
# C150 for the shipped types
-/

namespace Verif.Props
open Verif Verif.Gen Verif.GenLoop Verif.Tables Verif.Kinematic Verif.Registry Verif.Aero
open Verif.Data (shipped)

/-- Equal up to one per cent. -/
def Near (x y : ℝ) : Prop := |x - y| ≤ |y| / 100

/-- All parameters of a climb are equal up to one per cent. -/
structure NearClimb (P : Climb ℝ) (Q : ClimbParams) : Prop where
  dt : Near P.dt Q.dt
  aTof : Near P.aTof Q.aTof
  vTof : Near P.vTof Q.vTof
  mach : Near P.mach Q.mach
  vcas : Near P.vcas Q.vcas
  hCr : Near P.hCr Q.hCr
  vsIc : Near P.vsIc Q.vsIc
  vsPre : Near P.vsPre Q.vsPre
  vsCas : Near P.vsCas Q.vsCas
  vsMach : Near P.vsMach Q.vsMach
  hCas : Near P.hCas Q.hCas
  hMach : Near P.hMach Q.hMach

/-- All parameters of a descent are equal up to one per cent. -/
structure NearDescent (P : Descent ℝ) (Q : DescentParams) : Prop where
  dt : Near P.dt Q.dt
  withcr : P.withcr = Q.withcr
  aLnd : Near P.aLnd Q.aLnd
  vApp : Near P.vApp Q.vApp
  mach : Near P.mach Q.mach
  vcas : Near P.vcas Q.vcas
  hCr : Near P.hCr Q.hCr
  vsMach : Near P.vsMach Q.vsMach
  vsCas : Near P.vsCas Q.vsCas
  vsPost : Near P.vsPost Q.vsPost
  vsFa : Near P.vsFa Q.vsFa
  hCas : Near P.hCas Q.hCas
  hMach : Near P.hMach Q.hMach

/-- All parameters of a cruise are equal up to one per cent. -/
structure NearCruise (P : Cruise ℝ) (Q : CruiseParams) : Prop where
  dt : Near P.dt Q.dt
  distance : Near P.distance Q.distance
  mach : Near P.mach Q.mach
  hCr : Near P.hCr Q.hCr

private theorem near_pos {x y a b : ℝ} (h : Near x y) (ha : 0 ≤ a) (h1 : a ≤ y) (h2 : y ≤ b) :
    0.99 * a ≤ x ∧ x ≤ 1.01 * b := by
  unfold Near at h
  rw [abs_of_nonneg (show 0 ≤ y by linarith)] at h
  obtain ⟨l, r⟩ := abs_le.1 h
  constructor <;> linarith

private theorem near_neg {x y a b : ℝ} (h : Near x y) (hb : b ≤ 0) (h1 : a ≤ y) (h2 : y ≤ b) :
    1.01 * a ≤ x ∧ x ≤ 0.99 * b := by
  unfold Near at h
  rw [abs_of_nonpos (show y ≤ 0 by linarith)] at h
  obtain ⟨l, r⟩ := abs_le.1 h
  constructor <;> linarith

/-- Bounds beyond those of `tableOk` and `scheduleOk`. -/
def sizeOk (w : List WrapRow) : Bool :=
  decide (2000 ≤ (look w takeoffAcceleration).opt ∧ (look w climbConstVcas).opt ≤ 3900000 ∧
    2000 ≤ (look w initclimbVs).opt ∧ 2000 ≤ (look w climbVsPreConcas).opt ∧
    2000 ≤ (look w climbVsConcas).opt ∧ 2000 ≤ (look w climbVsConmach).opt ∧
    (look w climbConstMach).opt ≤ 10000 ∧ (look w climbCrossAltConcas).opt ≤ 45000 ∧
    (look w cruiseAlt).opt ≤ 140000) &&
  decide (-90000 ≤ (look w landingAcceleration).opt ∧ (look w descentConstVcas).opt ≤ 3900000 ∧
    (look w descentVsConmach).opt ≤ -2000 ∧ (look w descentVsConcas).opt ≤ -2000 ∧
    (look w descentVsPostConcas).opt ≤ -2000 ∧ (look w finalappVs).opt ≤ -2000 ∧
    (look w cruiseRange).opt ≤ 99000000)

theorem shipped_sizes : (availableAircraft shipped true).all (fun ac =>
    match Gen.init shipped ac () true with
    | .ok f => sizeOk f.wrap
    | .error _ => false) = true := by
  decide +kernel

section
variable {G : Type} {R : Rng G}

theorem init_sizes {ac : Str} (hac : ac ∈ availableAircraft shipped true) (seed : G) :
    ∃ f, Gen.init shipped ac seed true = .ok f ∧ tableOk f.wrap = true ∧
      scheduleOk f.wrap = true ∧ sizeOk f.wrap = true := by
  obtain ⟨f, a, h1, h2, h3, h4, -⟩ := init_schedule hac seed
  refine ⟨f, h1, h3, h4, ?_⟩
  have := List.all_eq_true.1 shipped_sizes ac hac
  unfold Gen.init at this h1
  simp only [bind, Except.bind, pure, Except.pure] at this h1
  rcases e1 : Registry.aircraft shipped ac true with e | a
  · rw [e1] at this; simp at this
  · rw [e1] at this h1
    rcases e2 : Construct.wrap shipped ac (some true) with e | w
    · rw [e2] at this; simp at this
    · rw [e2] at this h1
      simp only [Except.ok.injEq] at h1
      rw [← h1]
      exact this

private theorem step_bounds {d : Option ℝ} (hd : ∀ x, d = some x → 0.002 ≤ x ∧ x ≤ 59) :
    0.002 ≤ d.getD 1 ∧ d.getD 1 ≤ 59 :=
  getD_cases (p := fun x => 0.002 ≤ x ∧ x ≤ 59) hd ⟨by norm_num, by norm_num⟩

private theorem level_bounds' {a : ℝ} (h1 : 9000 ≤ a) (h2 : a ≤ 14000) :
    8900 ≤ roundHundreds (a / ft) * ft ∧ roundHundreds (a / ft) * ft ≤ 14100 := by
  obtain ⟨l, r⟩ := abs_le.1 (round_near (a / ft))
  have hf : (0 : ℝ) < ft := by unfold ft; norm_num
  have hf1 : (50 : ℝ) * ft ≤ 100 := by unfold ft; norm_num
  have e : a / ft * ft = a := div_mul_cancel₀ _ hf.ne'
  have l' : (a / ft - 50) * ft ≤ roundHundreds (a / ft) * ft :=
    mul_le_mul_of_nonneg_right (by linarith) hf.le
  have r' : roundHundreds (a / ft) * ft ≤ (a / ft + 50) * ft :=
    mul_le_mul_of_nonneg_right (by linarith) hf.le
  rw [sub_mul, e] at l'
  rw [add_mul, e] at r'
  constructor <;> linarith

/-- The default climb of every shipped type, with any step between 2 ms and 59 s, ends in double
precision: the loop does so for all parameters within one per cent of the exact ones. -/
theorem C150_climb_shipped (M : Machine .binary64) (ac : Str)
    (hac : ac ∈ availableAircraft shipped true) (seed : G) (hR : R.Unit) :
    ∃ f, Gen.init shipped ac seed true = .ok f ∧
      ∀ d : Option ℝ, (∀ x, d = some x → 0.002 ≤ x ∧ x ≤ 59) →
        ∃ Q g, climbSetup R f { dt := d } = .ok (Q, g) ∧
          ∀ P, NearClimb P Q → Format.binary64.Repr P.vTof → P.Ordinary ∧ ∃ rows, ClimbEnds M P rows := by
  obtain ⟨f, h1, h2, h3, h4⟩ := init_sizes hac seed
  refine ⟨f, h1, fun d hd => ?_⟩
  obtain ⟨d0, d1⟩ := step_bounds hd
  obtain ⟨Q, g, hs, -⟩ := climbSetup_ok (R := R) (f := f) (kw := { dt := d }) h2 hR
    (fun x hx => by have := hd x hx; linarith [this.1]) (fun x hx => (by cases hx))
  refine ⟨Q, g, hs, fun P hN hm => ?_⟩
  have F := table_facts h2 h3
  unfold sizeOk at h4
  simp only [Bool.and_eq_true, decide_eq_true_eq] at h4
  obtain ⟨⟨s1, s2, s3, s4, s5, s6, s7, s8, s9⟩, -⟩ := h4
  obtain ⟨e1, e2, e3, e4, e5, e6, e7, e8, e9, e10, e11, e12⟩ := climb_default h2 rfl rfl hs
  have hk : (0:ℝ) < kts := by unfold kts; norm_num
  have hv : Q.vcas = wreal (look f.wrap climbConstVcas).opt := by
    rw [e4, max_eq_left (div_le_div_of_nonneg_right F.vTof.2.2 hk.le), div_mul_cancel₀ _ hk.ne']
  have hx := F.climb climbConstMach (by simp)
  simp only [Option.getD_none] at e5 e6
  rw [← hv, ← e5, ← e12, ← e11] at hx
  have t1 := wreal_ge s1
  have t2 := wreal_le s2
  have t3 := wreal_ge s3
  have t4 := wreal_ge s4
  have t5 := wreal_ge s5
  have t6 := wreal_ge s6
  have t7 := wreal_le s7
  have t8 := wreal_le s8
  have t9 := wreal_le s9
  have w2 : wreal 3900000 = 390 := by unfold wreal; norm_num
  have w7 : wreal 10000 = 1 := by unfold wreal; norm_num
  have w8 : wreal 45000 = 4.5 := by unfold wreal; norm_num
  have w9 : wreal 140000 = 14 := by unfold wreal; norm_num
  rw [w2] at t2
  rw [w7] at t7
  rw [w8] at t8
  rw [w9] at t9
  norm_num at t1 t3 t4 t5 t6
  obtain ⟨L1, L2⟩ := level_bounds' F.alt (by linarith)
  rw [← e6] at L1 L2
  rw [← e2] at t1
  rw [← hv] at t2
  rw [← e7] at t3
  rw [← e8] at t4
  rw [← e9] at t5
  rw [← e10] at t6
  rw [← e5] at t7
  have b1 : 0.002 ≤ Q.dt ∧ Q.dt ≤ 59 := by rw [e1]; exact ⟨d0, d1⟩
  have a1 := F.aTof.2
  rw [← e2] at a1
  have a2 := F.vTof
  rw [← e3] at a2
  have a3 := F.cas
  rw [← hv] at a3
  have a4 := F.mach
  rw [← e5] at a4
  have a5 := F.hCas
  rw [← e11] at a5
  have a6 := F.ic.2
  rw [← e7] at a6
  have a7 := F.pre.2
  rw [← e8] at a7
  have a8 := F.con.2
  rw [← e9] at a8
  have a9 := F.com.2
  rw [← e10] at a9
  have n1 := near_pos hN.dt (by norm_num) b1.1 b1.2
  have n2 := near_pos hN.aTof (by norm_num) t1 a1
  have n3 := near_pos hN.vTof le_rfl a2.1 a2.2.1
  have n4 := near_pos hN.vcas (by norm_num) a3 t2
  have n5 := near_pos hN.mach (by norm_num) a4 t7
  have n6 := near_pos hN.hCr (by norm_num) L1 L2
  have n7 := near_pos hN.hCas (by norm_num) a5 (by rw [e11]; linarith : Q.hCas ≤ 4500)
  have n8 := near_pos hN.hMach (a := 0) le_rfl (by linarith [hx.1]) hx.2.1.le
  have n9 := near_pos hN.vsIc (by norm_num) t3 a6
  have n10 := near_pos hN.vsPre (by norm_num) t4 a7
  have n11 := near_pos hN.vsCas (by norm_num) t5 a8
  have n12 := near_pos hN.vsMach (by norm_num) t6 a9
  have hP : P.Ordinary := by
    refine ⟨⟨by linarith, by linarith⟩, ⟨by linarith, by linarith⟩, ⟨by linarith, by linarith⟩, hm,
      ⟨by linarith, by linarith, by linarith⟩, ⟨by linarith, by linarith, by linarith⟩, ?_, ?_⟩
    · simp only [List.mem_cons, List.not_mem_nil, or_false, forall_eq_or_imp, forall_eq]
      refine ⟨⟨?_, ?_⟩, ⟨?_, ?_⟩, ⟨?_, ?_⟩, ⟨?_, ?_⟩⟩ <;> linarith
    · simp only [List.mem_cons, List.not_mem_nil, or_false, forall_eq_or_imp, forall_eq]
      refine ⟨?_, ?_, ?_⟩ <;> linarith
  exact ⟨hP, (C150_climb M P hP).1⟩

/-- The default descent of every shipped type likewise. -/
theorem C150_descent_shipped (M : Machine .binary64) (ac : Str)
    (hac : ac ∈ availableAircraft shipped true) (seed : G) (hR : R.Unit) :
    ∃ f, Gen.init shipped ac seed true = .ok f ∧
      ∀ (d : Option ℝ) (w : Option Bool), (∀ x, d = some x → 0.002 ≤ x ∧ x ≤ 59) →
        ∃ Q g, descentSetup R f { dt := d, withcr := w } = .ok (Q, g) ∧
          ∀ P, NearDescent P Q → Format.binary64.Repr P.hCr →
            P.Ordinary ∧ ∃ rows, DescentEnds M P rows := by
  obtain ⟨f, h1, h2, h3, h4⟩ := init_sizes hac seed
  refine ⟨f, h1, fun d w hd => ?_⟩
  obtain ⟨d0, d1⟩ := step_bounds hd
  obtain ⟨Q, g, hs, -⟩ := descentSetup_ok (R := R) (f := f) (kw := { dt := d, withcr := w }) h2 hR
    ⟨fun x hx => (by have := hd x hx; linarith [this.1]), fun x hx => (by cases hx),
      fun x hx => (by cases hx), fun x hx => (by cases hx), fun x hx => (by cases hx),
      fun x hx => (by cases hx)⟩
  refine ⟨Q, g, hs, fun P hN hm => ?_⟩
  have F := table_facts h2 h3
  unfold sizeOk at h4
  simp only [Bool.and_eq_true, decide_eq_true_eq] at h4
  obtain ⟨⟨-, -, -, -, -, -, -, -, s9⟩, s1, s2, s3, s4, s5, s6, -⟩ := h4
  obtain ⟨e1, e2, e3, e4, e5, e6, e7, e8, e9, e10, e11, e12⟩ := descent_default h2 rfl rfl hs
  have hk : (0:ℝ) < kts := by unfold kts; norm_num
  rw [div_mul_cancel₀ _ hk.ne'] at e4
  have hx := F.descent descentConstMach (by simp)
  simp only [Option.getD_none] at e5 e6
  rw [← e4, ← e5, ← e11] at hx
  have t1 := wreal_ge s1
  have t2 := wreal_le s2
  have t3 := wreal_le s3
  have t4 := wreal_le s4
  have t5 := wreal_le s5
  have t6 := wreal_le s6
  have t9 := wreal_le s9
  have w2 : wreal 3900000 = 390 := by unfold wreal; norm_num
  have w3 : wreal (-2000) = -0.2 := by unfold wreal; norm_num
  have w9 : wreal 140000 = 14 := by unfold wreal; norm_num
  rw [w2] at t2
  rw [w3] at t3 t4 t5 t6
  rw [w9] at t9
  norm_num at t1
  obtain ⟨L1, L2⟩ := level_bounds' F.alt (by linarith)
  rw [← e6] at L1 L2
  have b1 : 0.002 ≤ Q.dt ∧ Q.dt ≤ 59 := by rw [e1]; exact ⟨d0, d1⟩
  have n1 := near_pos hN.dt (by norm_num) b1.1 b1.2
  have n2 := near_neg hN.aLnd (by norm_num) (e2 ▸ t1) (e2 ▸ F.aLnd)
  have n3 := near_pos hN.vApp (by norm_num) (e3 ▸ F.vApp.1) (e3 ▸ F.vApp.2)
  have n4 := near_pos hN.vcas (by norm_num) (e4 ▸ F.dcas) (e4 ▸ t2)
  have n5 := near_pos hN.mach (by norm_num) (e5 ▸ F.dmach.1) (e5 ▸ F.dmach.2)
  have n6 := near_pos hN.hCr (by norm_num) L1 L2
  have n7 := near_pos hN.hCas le_rfl e12 le_rfl
  have n8 := near_pos hN.hMach (a := 0) le_rfl hx.1.le hx.2.1.le
  have n9 := near_neg hN.vsMach (by norm_num) (e7 ▸ F.dcom.2) (e7 ▸ t3)
  have n10 := near_neg hN.vsCas (by norm_num) (e8 ▸ F.dcon.2) (e8 ▸ t4)
  have n11 := near_neg hN.vsPost (by norm_num) (e9 ▸ F.dpost.2) (e9 ▸ t5)
  have n12 := near_neg hN.vsFa (by norm_num) (e10 ▸ F.dfa.2) (e10 ▸ t6)
  have hP : P.Ordinary := by
    refine ⟨⟨by linarith, by linarith⟩, ⟨by linarith, by linarith⟩, ⟨by linarith, by linarith⟩,
      ⟨by linarith, by linarith⟩, ⟨by linarith, by linarith⟩, ?_, ⟨by linarith, by linarith⟩, hm,
      ⟨by linarith, by linarith⟩⟩
    simp only [List.mem_cons, List.not_mem_nil, or_false, forall_eq_or_imp, forall_eq]
    refine ⟨⟨?_, ?_⟩, ⟨?_, ?_⟩, ⟨?_, ?_⟩, ⟨?_, ?_⟩⟩ <;> linarith
  exact ⟨hP, (C150_descent M P hP).1⟩

/-- The default cruise of every shipped type likewise. -/
theorem C150_cruise_shipped (M : Machine .binary64) (ac : Str)
    (hac : ac ∈ availableAircraft shipped true) (seed : G) :
    ∃ f, Gen.init shipped ac seed true = .ok f ∧
      ∀ d : Option ℝ, (∀ x, d = some x → 0.002 ≤ x ∧ x ≤ 59) →
        ∃ Q g, cruiseSetup R f { dt := d } = .ok (Q, g) ∧
          ∀ P, NearCruise P Q → P.Ordinary ∧ ∃ rows, CruiseEnds M P rows := by
  obtain ⟨f, h1, h2, h3, h4⟩ := init_sizes hac seed
  refine ⟨f, h1, fun d hd => ?_⟩
  obtain ⟨d0, d1⟩ := step_bounds hd
  have F := table_facts h2 h3
  unfold sizeOk at h4
  simp only [Bool.and_eq_true, decide_eq_true_eq] at h4
  obtain ⟨⟨-, -, -, -, -, -, -, -, s9⟩, -, -, -, -, -, -, s1⟩ := h4
  have f1 := F.alt
  have f2 := F.kmach
  simp only [tableOk, Bool.and_eq_true, List.all_cons, List.all_nil, Bool.and_true] at h2
  obtain ⟨⟨⟨⟨⟨⟨⟨⟨⟨⟨⟨⟨x1, x2, x3, x4, x5⟩, x6⟩, y1⟩, y2⟩, z1, z2, z3⟩, y3⟩, y4⟩, y5⟩, y6⟩, y7⟩, y8⟩,
    v1, v2, v3, v4⟩ := h2
  obtain ⟨wR, e1, q, -⟩ := entry_of' y5
  obtain ⟨wA, e2, -⟩ := entry_of y3
  obtain ⟨wM, e3, -⟩ := entry_of z3
  rw [look_eq e2] at f1 s9
  rw [look_eq e3] at f2
  rw [look_eq e1] at s1
  have t1 := wreal_le s1
  have t9 := wreal_le s9
  have t0 := wreal_le q.le
  have w1 : wreal 99000000 = 9900 := by unfold wreal; norm_num
  have w9 : wreal 140000 = 14 := by unfold wreal; norm_num
  have w0 : wreal 0 = 0 := by unfold wreal; norm_num
  rw [w1] at t1
  rw [w9] at t9
  rw [w0] at t0
  obtain ⟨L1, L2⟩ := level_bounds' f1 (by linarith)
  unfold cruiseSetup
  simp only [e1, e2, e3, bind, Except.bind, pure, Except.pure]
  rw [if_neg (by simp)]
  refine ⟨_, _, rfl, fun P hN => ?_⟩
  have n1 := near_pos hN.dt (by norm_num) d0 d1
  have n2 := near_pos hN.distance (a := 0) (b := 9900000) le_rfl
    (by show 0 ≤ wreal wR.opt * 1000; linarith) (by show wreal wR.opt * 1000 ≤ _; linarith)
  have n3 := near_pos hN.mach (by norm_num) f2.1 f2.2
  have n4 := near_pos hN.hCr (by norm_num) L1 L2
  have hP : P.Ordinary :=
    ⟨⟨by linarith, by linarith⟩, ⟨by linarith, by linarith⟩,
      abs_le.2 ⟨by linarith, by linarith⟩, by linarith⟩
  exact ⟨hP, (C150_cruise M P hP).1⟩

private theorem near_self (x : ℝ) : Near x x := by
  unfold Near
  rw [sub_self, abs_zero]
  positivity

/-- The exact parameters with the take-off speed rounded to a number in memory. -/
example (M : Machine .binary64) (seed : G) (hR : R.Unit) (ac : Str)
    (hac : ac ∈ availableAircraft shipped true) :
    ∃ Q : ClimbParams, ∃ P : Climb ℝ, NearClimb P Q ∧ P.vTof = M.rnd Q.vTof ∧
      ∃ rows, ClimbEnds M P rows := by
  obtain ⟨f, h1, h⟩ := C150_climb_shipped (R := R) M ac hac seed hR
  obtain ⟨Q, g, hs, hQ⟩ := h none (fun x hx => by cases hx)
  obtain ⟨f', h1', h2', -⟩ := init_shipped hac seed
  rw [h1] at h1'
  cases h1'
  obtain ⟨Q', g', hs', -, -, -, l, r, -⟩ := climbSetup_ok (R := R) (f := f) (kw := { dt := none }) h2' hR
    (fun x hx => by cases hx) (fun x hx => by cases hx)
  rw [hs] at hs'
  simp only [Except.ok.injEq, Prod.mk.injEq] at hs'
  rw [← hs'.1] at l r
  have hv : |Q.vTof| = Q.vTof := abs_of_pos (by linarith)
  have e := abs_rnd64 M (x := Q.vTof) (by rw [hv]; linarith)
  have hr : Format.binary64.Repr (M.rnd Q.vTof) :=
    M.rnd_repr _ (big_of_huge (by rw [hv]; linarith [huge_ge]))
  refine ⟨Q, { looped Q with vTof := M.rnd Q.vTof }, ?_, rfl, ?_⟩
  · refine ⟨near_self _, near_self _, ?_, near_self _, near_self _, near_self _, near_self _,
      near_self _, near_self _, near_self _, near_self _, near_self _⟩
    show |M.rnd Q.vTof - Q.vTof| ≤ _
    refine e.trans ?_
    rw [hv]
    linarith
  · refine (hQ _ ⟨near_self _, near_self _, ?_, near_self _, near_self _, near_self _, near_self _,
      near_self _, near_self _, near_self _, near_self _, near_self _⟩ hr).2
    show |M.rnd Q.vTof - Q.vTof| ≤ _
    refine e.trans ?_
    rw [hv]
    linarith

end

end Verif.Props
