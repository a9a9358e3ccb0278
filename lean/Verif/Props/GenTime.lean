import Verif.Lemmas.GenTime
import Verif.Props.Gen

/-!
# C147: the time step of a generated climb or descent is a resolution
-/

namespace Verif.Props
open Verif Verif.Aero Verif.Gen Verif.Spec Verif.Tables Verif.Kinematic Verif.Registry
open Verif.Data (shipped)

variable {G : Type} {R : Rng G}

/-- **C147, climb.** Up to its first level row a climb keeps to the time table of the aircraft flown
continuously: the take-off run lasts `v / a`, each altitude is passed `∫ dh / rate` later, and rows
are off by a number of time steps fixed by the climb rates. The first level row is at most one step
of climb above the level-off altitude, and as close to the time at which that is reached. -/
theorem C147_climb (f f' : FlightGen G) (kw : Kw) (hn : f.noise = false) (fr : ClimbFrame)
    (h : ClimbReturns R f kw fr f') (hP : fr.params.Valid) (h0 : 0 ≤ fr.params.vTof)
    (hcas : (1 + 1e-8) * fr.params.vTof ≤ fr.params.vcas)
    (hmach : fr.params.vTof ≤ 295 * fr.params.mach) (P : ClimbParams) (hp : fr.params = P)
    (q : ℝ) (hq : q = max (max P.vsIc P.vsPre) (max P.vsCas P.vsMach) /
      min (min P.vsIc P.vsPre) (min P.vsCas P.vsMach))
    (T : ℝ → ℝ) (hT : T = fun u => P.vTof / P.aTof +
      passage (climbRate P.vsIc P.vsPre P.vsCas P.vsMach P.hCas P.hMach) 0 u)
    (top : ℝ) (ht : top = max (max P.hCr P.hMach) (max P.hCas (1500 * 0.3048))) :
    ∀ pre x post, fr.rows = pre ++ x :: post → (∀ y ∈ pre, y.seg ≠ some .CR) →
      (climbRank x.seg ≤ 1 → x.h = 0 ∧ x.v = P.aTof * x.t ∧ x.t < P.vTof / P.aTof + P.dt) ∧
      (2 ≤ climbRank x.seg → |x.t - T x.h| ≤ (2 + 3 * q) * P.dt) ∧
      (x.seg = some .CR → top ≤ x.h ∧
        x.h ≤ top + max (max P.vsIc P.vsPre) (max P.vsCas P.vsMach) * P.dt ∧
        |x.t - T top| ≤ (2 + 4 * q) * P.dt) := by
  subst hp hT
  obtain ⟨P, g, ss, h1, h2, rfl, -⟩ := climbReturns_iff.1 h
  intro pre x post e hpre
  simp only at *
  rw [addNoise_off hn] at e
  simp only [List.map_map] at e
  obtain ⟨l1, l2, rfl, e1, e2⟩ := List.map_eq_append_iff.1 e
  obtain ⟨y, l3, rfl, e3, e4⟩ := List.map_eq_cons_iff.1 e2
  have hl : ∀ z ∈ l1, z.seg ≠ some .CR := by
    intro z hz
    exact hpre (derive z.toRow) (by rw [← e1]; exact List.mem_map.2 ⟨z, hz, rfl⟩)
  have init : ClimbTime P climbInit :=
    .inl ⟨by decide, rfl, rfl, by simp [climbInit], le_rfl, by
      have := div_nonneg h0 hP.aTof.le
      have := hP.dt
      simp only [climbInit]
      linarith⟩
  have key := climb_near hP h0 hcas hmach h2 init l1 y l3 rfl hl
  have hr := climb_rate hP
  have hqn := hr.ratio
  have hqe : P.vsMax / P.vsMin = q := hq.symm
  have hte : P.level = top := ht.symm
  rw [hqe] at hqn
  have hdt := hP.dt
  have ex : x.t = y.t ∧ x.h = y.h ∧ x.v = y.v ∧ x.seg = y.seg := by
    rw [← e3]; exact ⟨rfl, rfl, rfl, rfl⟩
  obtain ⟨x1, x2, x3, x4⟩ := ex
  rw [x1, x2, x3, x4]
  have near : ∀ {t u}, NearClimb P t u → |t - (P.vTof / P.aTof + passage P.rate 0 u)| ≤
      (2 + 3 * q) * P.dt := by
    intro t u hu
    unfold NearClimb at hu
    rw [← sub_sub]
    refine hu.trans ?_
    rw [hqe]
    have := count_le P u
    have : q * P.count u ≤ q * 3 := mul_le_mul_of_nonneg_left this (by linarith)
    exact mul_le_mul_of_nonneg_right (by linarith) hdt.le
  refine ⟨?_, ?_, ?_⟩
  · intro hrk
    rcases key with ⟨-, k2, -, k4, -, k6⟩ | ⟨k, -⟩ | ⟨k, -⟩
    · exact ⟨k2, k4, k6⟩
    · omega
    · rw [k] at hrk; simp [climbRank] at hrk
  · intro hrk
    rcases key with ⟨k, -⟩ | ⟨-, -, -, -, -, -, k⟩ | ⟨-, -, -, k⟩
    · omega
    · exact near k
    · exact near k
  · intro hs
    obtain ⟨k1, k2, k3⟩ := climbTime_top hP key hs
    rw [hte, hqe] at k3
    rw [hte] at k1 k2
    refine ⟨k1, k2, ?_⟩
    rw [← sub_sub]
    exact k3

/-- **C147, descent.** Likewise for a descent up to its first row on the ground: `60` s at the cruise
altitude if asked for, then each altitude is passed `∫ dh / rate` later. -/
theorem C147_descent (f f' : FlightGen G) (kw : Kw) (hn : f.noise = false) (fr : DescentFrame)
    (h : DescentReturns R f kw fr f') (hP : fr.params.Valid) (P : DescentParams)
    (hp : fr.params = P)
    (q : ℝ) (hq : q = max (max (-P.vsMach) (-P.vsCas)) (max (-P.vsPost) (-P.vsFa)) /
      min (min (-P.vsMach) (-P.vsCas)) (min (-P.vsPost) (-P.vsFa)))
    (T : ℝ → ℝ) (hT : T = fun u => (if P.withcr = true then 60 else 0) +
      passage (sinkRate (-P.vsMach) (-P.vsCas) (-P.vsPost) (-P.vsFa) P.hMach P.hCas) u P.hCr) :
    ∀ pre x post, fr.rows = pre ++ x :: post → (∀ y ∈ pre, y.seg ≠ some .LD) →
      (descentRank x.seg ≤ 1 → x.h = P.hCr ∧ x.t ≤ (if P.withcr = true then 60 else 0)) ∧
      (2 ≤ descentRank x.seg → |x.t - T x.h| ≤ (1 + 4 * q) * P.dt) ∧
      (x.seg = some .LD → x.h = 0) := by
  subst hp hT
  obtain ⟨P, g, ss, h1, h2, rfl, -⟩ := descentReturns_iff.1 h
  intro pre x post e hpre
  simp only at *
  rw [addNoise_off hn] at e
  obtain ⟨l1, l2, rfl, e1, e2⟩ := List.map_eq_append_iff.1 e
  obtain ⟨y, l3, rfl, e3, e4⟩ := List.map_eq_cons_iff.1 e2
  have hl : ∀ z ∈ l1, z.seg ≠ some .LD := by
    intro z hz
    exact hpre (derive z) (by rw [← e1]; exact List.mem_map.2 ⟨z, hz, rfl⟩)
  have init : DescentTime P (descentInit P) :=
    .inl ⟨by simp [descentInit, descentRank], rfl, rfl, le_rfl, by
      simp only [descentInit, DescentParams.wait]
      split_ifs <;> norm_num⟩
  have key := descent_near hP h2 init l1 y l3 rfl hl
  have hr := descent_rate hP
  have hqn := hr.ratio
  have hqe : P.vsMax / P.vsMin = q := hq.symm
  have hdt := hP.dt
  have ex : x.t = y.t ∧ x.h = y.h ∧ x.seg = y.seg := by
    rw [← e3]; exact ⟨rfl, rfl, rfl⟩
  obtain ⟨x1, x2, x4⟩ := ex
  rw [x1, x2, x4]
  refine ⟨?_, ?_, ?_⟩
  · intro hrk
    rcases key with ⟨-, k2, -, -, k5⟩ | ⟨k, -⟩ | ⟨k, -⟩
    · exact ⟨k2, k5⟩
    · omega
    · rw [k] at hrk; simp [descentRank] at hrk
  · intro hrk
    rcases key with ⟨k, -⟩ | ⟨-, -, -, -, -, k⟩ | ⟨-, k1, k⟩
    · omega
    · rw [← sub_sub]
      refine k.trans ?_
      rw [hqe] at hqn ⊢
      have := descent_count_le P y.h
      have : q * P.count y.h ≤ q * 3 := mul_le_mul_of_nonneg_left this (by linarith)
      exact mul_le_mul_of_nonneg_right (by linarith) hdt.le
    · rw [← sub_sub, k1, ← hqe]
      exact k
  · intro hs
    rcases key with ⟨k, -⟩ | ⟨-, k, -⟩ | ⟨-, k, -⟩
    · simp [hs, descentRank] at k
    · simp [hs, descentRank] at k
    · exact k

/-! ## Shipped tables -/

/-- Every number of one list is at most `q` times every number of the other. -/
def spanOk (q : ℤ) (lo hi : List ℤ) : Bool := lo.all fun a => hi.all fun b => decide (b ≤ q * a)

/-- The rates of a table are within a factor: 3 for the `opt` columns, 6 and 8 for the ranges. -/
def spansOk (w : List WrapRow) : Bool :=
  let a := look w initclimbVs
  let b := look w climbVsPreConcas
  let c := look w climbVsConcas
  let d := look w climbVsConmach
  let k := look w descentVsConmach
  let l := look w descentVsConcas
  let m := look w descentVsPostConcas
  let n := look w finalappVs
  spanOk 3 [a.opt, b.opt, c.opt, d.opt] [a.opt, b.opt, c.opt, d.opt] &&
  spanOk 6 [a.opt, b.min, c.min, d.min] [a.opt, b.max, c.max, d.max] &&
  spanOk 3 [-k.opt, -l.opt, -m.opt, -n.opt] [-k.opt, -l.opt, -m.opt, -n.opt] &&
  spanOk 8 [-k.max, -l.max, -m.max, -n.opt] [-k.min, -l.min, -m.min, -n.opt]

theorem shipped_spans : shipped.wrap.all (fun e => spansOk e.2) = true := by decide +kernel

theorem init_spans {ac : Str} (hac : ac ∈ availableAircraft shipped true) (seed : G) :
    ∃ f, Gen.init shipped ac seed true = .ok f ∧ tableOk f.wrap = true ∧ spansOk f.wrap = true ∧
      f.noise = false := by
  obtain ⟨f, h1, h2, h3, -⟩ := init_shipped hac seed
  have := List.all_eq_true.1 shipped_limits ac hac
  unfold Gen.init at this h1
  simp only [bind, Except.bind, pure, Except.pure] at this h1
  rcases e1 : Registry.aircraft shipped ac true with e | a
  · rw [e1] at this; simp at this
  · rw [e1] at this h1
    rcases e2 : Construct.wrap shipped ac (some true) with e | w
    · rw [e2] at this; simp at this
    · rw [e2] at this h1
      simp only [Bool.and_eq_true, Bool.or_eq_true, decide_eq_true_eq, List.any_eq_true,
        beq_iff_eq] at this
      obtain ⟨-, e, he, hw⟩ := this
      simp only [Except.ok.injEq] at h1
      subst h1
      refine ⟨_, ?_, h2, ?_, h3⟩
      · unfold Gen.init
        simp only [bind, Except.bind, pure, Except.pure, e1, e2]
      · show spansOk w = true
        rw [← hw]
        exact List.all_eq_true.1 shipped_spans e he

/-- A quotient of the largest and the smallest of four numbers. -/
theorem span_le {a b c d q : ℝ} (hq : ∀ x ∈ [a, b, c, d], ∀ y ∈ [a, b, c, d], x ≤ q * y)
    (hp : ∀ x ∈ [a, b, c, d], 0 < x) :
    max (max a b) (max c d) / min (min a b) (min c d) ≤ q := by
  simp only [List.mem_cons, List.not_mem_nil, or_false, forall_eq_or_imp, forall_eq] at hq hp
  obtain ⟨⟨a1, a2, a3, a4⟩, ⟨b1, b2, b3, b4⟩, ⟨c1, c2, c3, c4⟩, ⟨d1, d2, d3, d4⟩⟩ := hq
  obtain ⟨p1, p2, p3, p4⟩ := hp
  rw [div_le_iff₀ (by simp [*])]
  rcases min_choice (min a b) (min c d) with h | h <;> rw [h]
  · rcases min_choice a b with h | h <;> rw [h] <;> simp [*]
  · rcases min_choice c d with h | h <;> rw [h] <;> simp [*]

theorem span_of {q : ℤ} {lo hi : List ℤ} (h : spanOk q lo hi = true) {a b : ℤ} (ha : a ∈ lo)
    (hb : b ∈ hi) : wreal b ≤ q * wreal a := by
  have := of_decide_eq_true (List.all_eq_true.1 (List.all_eq_true.1 h a ha) b hb)
  have h2 : (b:ℝ) ≤ q * a := by exact_mod_cast this
  unfold wreal
  rw [← mul_div_assoc]
  gcongr

theorem span_list {q l1 l2 l3 l4 u1 u2 u3 u4 : ℤ} {r1 r2 r3 r4 : ℝ}
    (h : spanOk q [l1, l2, l3, l4] [u1, u2, u3, u4] = true) (h1 : wreal l1 ≤ r1 ∧ r1 ≤ wreal u1)
    (h2 : wreal l2 ≤ r2 ∧ r2 ≤ wreal u2) (h3 : wreal l3 ≤ r3 ∧ r3 ≤ wreal u3)
    (h4 : wreal l4 ≤ r4 ∧ r4 ≤ wreal u4) (hq : 0 ≤ q := by norm_num) :
    ∀ x ∈ [r1, r2, r3, r4], ∀ y ∈ [r1, r2, r3, r4], x ≤ (q:ℝ) * y := by
  have hq' : (0:ℝ) ≤ q := by exact_mod_cast hq
  have go : ∀ {a b : ℤ} {x y : ℝ}, a ∈ [l1, l2, l3, l4] → b ∈ [u1, u2, u3, u4] → x ≤ wreal b →
      wreal a ≤ y → x ≤ (q:ℝ) * y := fun ha hb hx hy =>
    (hx.trans (span_of h ha hb)).trans (mul_le_mul_of_nonneg_left hy hq')
  simp only [List.mem_cons, List.not_mem_nil, or_false, forall_eq_or_imp, forall_eq]
  refine ⟨⟨?_, ?_, ?_, ?_⟩, ⟨?_, ?_, ?_, ?_⟩, ⟨?_, ?_, ?_, ?_⟩, ⟨?_, ?_, ?_, ?_⟩⟩
  · exact go (by simp) (by simp) h1.2 h1.1
  · exact go (by simp) (by simp) h1.2 h2.1
  · exact go (by simp) (by simp) h1.2 h3.1
  · exact go (by simp) (by simp) h1.2 h4.1
  · exact go (by simp) (by simp) h2.2 h1.1
  · exact go (by simp) (by simp) h2.2 h2.1
  · exact go (by simp) (by simp) h2.2 h3.1
  · exact go (by simp) (by simp) h2.2 h4.1
  · exact go (by simp) (by simp) h3.2 h1.1
  · exact go (by simp) (by simp) h3.2 h2.1
  · exact go (by simp) (by simp) h3.2 h3.1
  · exact go (by simp) (by simp) h3.2 h4.1
  · exact go (by simp) (by simp) h4.2 h1.1
  · exact go (by simp) (by simp) h4.2 h2.1
  · exact go (by simp) (by simp) h4.2 h3.1
  · exact go (by simp) (by simp) h4.2 h4.1

/-- Changing the time step changes nothing else. -/
theorem climbSetup_step {f : FlightGen G} {kw : Kw} {P : ClimbParams} {g : G} {d : ℝ}
    (h : climbSetup R f kw = .ok (P, g)) :
    climbSetup R f { kw with dt := some d } = .ok ({ P with dt := d }, g) := by
  unfold climbSetup at h ⊢
  simp only [bind, Except.bind, pure, Except.pure] at h ⊢
  repeat' split at h
  all_goals first
    | (cases h; done)
    | (simp only [Except.ok.injEq, Prod.mk.injEq] at h
       obtain ⟨rfl, rfl⟩ := h
       simp [*])

theorem descentSetup_step {f : FlightGen G} {kw : Kw} {P : DescentParams} {g : G} {d : ℝ}
    (h : descentSetup R f kw = .ok (P, g)) :
    descentSetup R f { kw with dt := some d } = .ok ({ P with dt := d }, g) := by
  unfold descentSetup at h ⊢
  simp only [bind, Except.bind, pure, Except.pure] at h ⊢
  repeat' split at h
  all_goals first
    | (cases h; done)
    | (simp only [Except.ok.injEq, Prod.mk.injEq] at h
       obtain ⟨rfl, rfl⟩ := h
       simp [*])

theorem climb_span {f : FlightGen G} (hw : tableOk f.wrap = true) (hk : spansOk f.wrap = true)
    (hR : R.Unit) {kw : Kw} {P : ClimbParams} {g : G} (hs : climbSetup R f kw = .ok (P, g))
    (hP : P.Valid) :
    max (max P.vsIc P.vsPre) (max P.vsCas P.vsMach) / min (min P.vsIc P.vsPre) (min P.vsCas P.vsMach) ≤
      if kw.random = some true then 6 else 3 := by
  have q1 := hP.vsIc
  have q2 := hP.vsPre
  have q3 := hP.vsCas
  have q4 := hP.vsMach
  refine span_le ?_ (by simp [*])
  simp only [tableOk, Bool.and_eq_true, List.all_cons, List.all_nil, Bool.and_true] at hw
  obtain ⟨⟨⟨⟨⟨⟨⟨⟨⟨⟨⟨⟨x1, x2, x3, x4, x5⟩, x6⟩, y1⟩, y2⟩, z1, z2, z3⟩, y3⟩, y4⟩, y5⟩, y6⟩, y7⟩, y8⟩,
    v1, v2, v3, v4⟩ := hw
  obtain ⟨aTof, e1, -⟩ := entry_of x1
  obtain ⟨wPre, e2, -, -, m2, -⟩ := entry_of x2
  obtain ⟨wCon, e3, -, -, m3, -⟩ := entry_of x3
  obtain ⟨wCom, e4, -, -, m4, -⟩ := entry_of x4
  obtain ⟨wIc, e5, -⟩ := entry_of x5
  obtain ⟨wCas, e6, -⟩ := entry_of y2
  obtain ⟨wMach, e7, -⟩ := entry_of z1
  obtain ⟨wAlt, e8, -⟩ := entry_of y3
  obtain ⟨vTof, e9, -⟩ := entry_of' y1
  obtain ⟨wX, e10, -⟩ := entry_of' y4
  unfold spansOk at hk
  simp only [Bool.and_eq_true, look_eq e2, look_eq e3, look_eq e4, look_eq e5] at hk
  obtain ⟨⟨⟨k1, k2⟩, -⟩, -⟩ := hk
  unfold climbSetup at hs
  simp only [e1, e2, e3, e4, e5, e6, e7, e8, e9, e10, bind, Except.bind, pure, Except.pure] at hs
  rcases hb : kw.random with _ | _ | _ <;> rw [hb] at hs
  · simp only [Option.getD_none, Bool.false_eq_true, if_false, Except.ok.injEq, Prod.mk.injEq] at hs
    obtain ⟨rfl, -⟩ := hs
    exact_mod_cast span_list k1 ⟨le_rfl, le_rfl⟩ ⟨le_rfl, le_rfl⟩ ⟨le_rfl, le_rfl⟩ ⟨le_rfl, le_rfl⟩
  · simp only [Option.getD_some, Bool.false_eq_true, if_false, Except.ok.injEq, Prod.mk.injEq] at hs
    obtain ⟨rfl, -⟩ := hs
    exact_mod_cast span_list k1 ⟨le_rfl, le_rfl⟩ ⟨le_rfl, le_rfl⟩ ⟨le_rfl, le_rfl⟩ ⟨le_rfl, le_rfl⟩
  · simp only [Option.getD_some, if_true, Except.ok.injEq, Prod.mk.injEq] at hs
    have i1 : wreal wIc.opt ≤ P.vsIc ∧ P.vsIc ≤ wreal wIc.opt := by rw [← hs.1]; simp
    have i2 : wreal wPre.min ≤ P.vsPre ∧ P.vsPre ≤ wreal wPre.max := by
      rw [← hs.1]; exact uniform_mem hR m2 _
    have i3 : wreal wCon.min ≤ P.vsCas ∧ P.vsCas ≤ wreal wCon.max := by
      rw [← hs.1]; exact uniform_mem hR m3 _
    have i4 : wreal wCom.min ≤ P.vsMach ∧ P.vsMach ≤ wreal wCom.max := by
      rw [← hs.1]; exact uniform_mem hR m4 _
    exact_mod_cast span_list k2 i1 i2 i3 i4

theorem descent_span {f : FlightGen G} (hw : tableOk f.wrap = true) (hk : spansOk f.wrap = true)
    (hR : R.Unit) {kw : Kw} {P : DescentParams} {g : G} (hs : descentSetup R f kw = .ok (P, g))
    (hP : P.Valid) :
    max (max (-P.vsMach) (-P.vsCas)) (max (-P.vsPost) (-P.vsFa)) /
      min (min (-P.vsMach) (-P.vsCas)) (min (-P.vsPost) (-P.vsFa)) ≤
      if kw.random = some true then 8 else 3 := by
  have q1 := hP.vsMach
  have q2 := hP.vsCas
  have q3 := hP.vsPost
  have q4 := hP.vsFa
  refine span_le ?_ (by simp [*])
  simp only [tableOk, Bool.and_eq_true, List.all_cons, List.all_nil, Bool.and_true] at hw
  obtain ⟨⟨⟨⟨⟨⟨⟨⟨⟨⟨⟨⟨x1, x2, x3, x4, x5⟩, x6⟩, y1⟩, y2⟩, z1, z2, z3⟩, y3⟩, y4⟩, y5⟩, y6⟩, y7⟩, y8⟩,
    v1, v2, v3, v4⟩ := hw
  obtain ⟨_, e1, -⟩ := entry_of' y8
  obtain ⟨_, e2, -⟩ := entry_of x6
  obtain ⟨_, e3, -⟩ := entry_of y3
  obtain ⟨_, e4, -⟩ := entry_of z2
  obtain ⟨_, e5, -⟩ := entry_of' y6
  obtain ⟨wCom, e6, -, -, m6, -⟩ := entry_of v1
  obtain ⟨wCon, e7, -, -, m7, -⟩ := entry_of v2
  obtain ⟨wPost, e8, -, -, m8, -⟩ := entry_of v3
  obtain ⟨wFa, e9, -⟩ := entry_of v4
  obtain ⟨_, e10, -⟩ := entry_of' y7
  unfold spansOk at hk
  simp only [Bool.and_eq_true, look_eq e6, look_eq e7, look_eq e8, look_eq e9] at hk
  obtain ⟨⟨-, k1⟩, k2⟩ := hk
  have neg : ∀ z : ℤ, wreal (-z) = -wreal z := fun z => by unfold wreal; push_cast; ring
  unfold descentSetup at hs
  simp only [e1, e2, e3, e4, e5, e6, e7, e8, e9, e10, bind, Except.bind, pure, Except.pure] at hs
  have flat : ∀ r, -P.vsMach = wreal (-wCom.opt) → -P.vsCas = wreal (-wCon.opt) →
      -P.vsPost = wreal (-wPost.opt) → -P.vsFa = wreal (-wFa.opt) → r = (3:ℝ) →
      ∀ x ∈ [-P.vsMach, -P.vsCas, -P.vsPost, -P.vsFa], ∀ y ∈ [-P.vsMach, -P.vsCas, -P.vsPost, -P.vsFa],
        x ≤ r * y := by
    intro r a1 a2 a3 a4 hr
    rw [a1, a2, a3, a4, hr]
    exact_mod_cast span_list k1 ⟨le_rfl, le_rfl⟩ ⟨le_rfl, le_rfl⟩ ⟨le_rfl, le_rfl⟩ ⟨le_rfl, le_rfl⟩
  rcases hb : kw.random with _ | _ | _ <;> rw [hb] at hs
  · simp only [Option.getD_none, Bool.false_eq_true, if_false, Except.ok.injEq, Prod.mk.injEq] at hs
    exact flat _ (by rw [neg, ← hs.1]) (by rw [neg, ← hs.1]) (by rw [neg, ← hs.1])
      (by rw [neg, ← hs.1]) (by simp)
  · simp only [Option.getD_some, Bool.false_eq_true, if_false, Except.ok.injEq, Prod.mk.injEq] at hs
    exact flat _ (by rw [neg, ← hs.1]) (by rw [neg, ← hs.1]) (by rw [neg, ← hs.1])
      (by rw [neg, ← hs.1]) (by simp)
  · simp only [Option.getD_some, if_true, Except.ok.injEq, Prod.mk.injEq] at hs
    have i1 : wreal wCom.min ≤ P.vsMach ∧ P.vsMach ≤ wreal wCom.max := by
      rw [← hs.1]; exact uniform_mem hR m6 _
    have i2 : wreal wCon.min ≤ P.vsCas ∧ P.vsCas ≤ wreal wCon.max := by
      rw [← hs.1]; exact uniform_mem hR m7 _
    have i3 : wreal wPost.min ≤ P.vsPost ∧ P.vsPost ≤ wreal wPost.max := by
      rw [← hs.1]; exact uniform_mem hR m8 _
    have i4 : P.vsFa = wreal wFa.opt := by rw [← hs.1]
    exact_mod_cast span_list k2 (r1 := -P.vsMach) (r2 := -P.vsCas) (r3 := -P.vsPost) (r4 := -P.vsFa)
      (by rw [neg, neg]; constructor <;> linarith) (by rw [neg, neg]; constructor <;> linarith)
      (by rw [neg, neg]; constructor <;> linarith) (by rw [neg, i4]; constructor <;> linarith)

/-- **C147, shipped tables, climb.** For every offered type code and all arguments with a Mach
number of at least 0.35 and a CAS of at least 190 kt, random or not, there is a time table, strictly
increasing with altitude, which does not depend on the time step: with a step of `d` seconds every
row off the ground up to the first level one is within `11 d` of it (`20 d` with random rates), and
the first level row is within `14 d` (`26 d`) of the time of the level-off altitude. -/
theorem C147_climb_shipped (ac : Str) (hac : ac ∈ availableAircraft shipped true) (seed : G)
    (hR : R.Unit) :
    ∃ f, Gen.init shipped ac seed true = .ok f ∧ ∀ kw : Kw,
      (∀ m, kw.machCl = some m → 0.35 ≤ m) → (∀ c, kw.casCl = some c → 190 ≤ c) →
      ∃ (T : ℝ → ℝ) (top : ℝ), StrictMono T ∧ ∀ d, 0 < d →
        ∃ fr f', ClimbReturns R f { kw with dt := some d } fr f' ∧
          ∀ pre x post, fr.rows = pre ++ x :: post → (∀ y ∈ pre, y.seg ≠ some .CR) →
            (2 ≤ climbRank x.seg →
              |x.t - T x.h| ≤ (if kw.random = some true then 20 else 11) * d) ∧
            (x.seg = some .CR →
              |x.t - T top| ≤ (if kw.random = some true then 26 else 14) * d) := by
  obtain ⟨f, h1, h2, hk, h3⟩ := init_spans hac seed
  refine ⟨f, h1, ?_⟩
  intro kw hm hc
  obtain ⟨P, g, hs, hP, -, -, a1, a2, a3, a4, a5, a6, -⟩ :=
    climbSetup_ok (R := R) (f := f) (kw := { kw with dt := some 1 }) h2 hR (by simp)
      (fun m h => by linarith [hm m h])
  have hr := climb_rate hP
  refine ⟨fun u => P.vTof / P.aTof + passage P.rate 0 u, P.level, ?_, ?_⟩
  · intro a b hab
    simp only
    rw [hr.add 0 a b]
    linarith [hr.strict hab]
  intro d hd
  have hs' := climbSetup_step (d := d) hs
  simp only at hs'
  have hP' : ({ P with dt := d } : ClimbParams).Valid :=
    ⟨hd, hP.aTof, hP.vsIc, hP.vsPre, hP.vsCas, hP.vsMach, hP.mach⟩
  obtain ⟨fr, f', hret⟩ := climbReturns_of hs' hP'
  have e := ((C50_climb f _ _ g hs' hP').2 h3 fr f' hret).1
  have hspan := climb_span h2 hk hR hs hP
  simp only at hspan
  have v1 : 97.7 ≤ P.vcas := by
    rcases h : kw.casCl with _ | c
    · linarith [a3 h]
    · linarith [a4 c h, hc c h]
  have v2 : P.vTof ≤ 295 * P.mach := by
    rcases h : kw.machCl with _ | m
    · linarith [a5 h]
    · linarith [a6 m h, hm m h]
  refine ⟨fr, f', hret, ?_⟩
  intro pre x post hrows hpre
  obtain ⟨-, k2, k3⟩ := C147_climb f f' _ h3 fr hret (e ▸ hP') (by rw [e]; simp only; linarith)
    (by rw [e]; simp only; linarith) (by rw [e]; exact v2) _ e _ rfl _ rfl _ rfl pre x post hrows hpre
  constructor
  · intro h
    refine (k2 h).trans (mul_le_mul_of_nonneg_right ?_ hd.le)
    simp only
    split_ifs at hspan ⊢ <;> linarith
  · intro h
    refine (k3 h).2.2.trans (mul_le_mul_of_nonneg_right ?_ hd.le)
    simp only
    split_ifs at hspan ⊢ <;> linarith

/-- **C147, shipped tables, descent.** Likewise for descents with sensible arguments: every row
below the cruise altitude up to the first one on the ground is within `13 d` of the time table
(`33 d` with random rates). -/
theorem C147_descent_shipped (ac : Str) (hac : ac ∈ availableAircraft shipped true) (seed : G)
    (hR : R.Unit) :
    ∃ f, Gen.init shipped ac seed true = .ok f ∧ ∀ kw : Kw, kw.Sensible →
      ∃ T : ℝ → ℝ, StrictAnti T ∧ ∀ d, 0 < d →
        ∃ fr f', DescentReturns R f { kw with dt := some d } fr f' ∧
          ∀ pre x post, fr.rows = pre ++ x :: post → (∀ y ∈ pre, y.seg ≠ some .LD) →
            2 ≤ descentRank x.seg →
              |x.t - T x.h| ≤ (if kw.random = some true then 33 else 13) * d := by
  obtain ⟨f, h1, h2, hk, h3⟩ := init_spans hac seed
  refine ⟨f, h1, ?_⟩
  intro kw hsn
  obtain ⟨P, g, hs, hP, -⟩ := descentSetup_ok (R := R) (f := f) (kw := kw) h2 hR hsn
  have hr := descent_rate hP
  refine ⟨fun u => P.wait + passage P.rate u P.hCr, ?_, ?_⟩
  · intro a b hab
    simp only
    rw [hr.add a b P.hCr]
    linarith [hr.strict hab]
  intro d hd
  have hs' := descentSetup_step (d := d) hs
  have hP' : ({ P with dt := d } : DescentParams).Valid :=
    ⟨hd, hP.aLnd, hP.vsMach, hP.vsCas, hP.vsPost, hP.vsFa, hP.hCas, hP.hMach, hP.hCr⟩
  obtain ⟨fr, f', hret⟩ := descentReturns_of hs' hP'
  have e := ((C52_descent f _ _ g hs' hP').2 h3 fr f' hret).1
  have hspan := descent_span h2 hk hR hs hP
  refine ⟨fr, f', hret, ?_⟩
  intro pre x post hrows hpre h
  have k2 := (C147_descent f f' _ h3 fr hret (e ▸ hP') _ e _ rfl _ rfl pre x post hrows hpre).2.1 h
  refine k2.trans (mul_le_mul_of_nonneg_right ?_ hd.le)
  simp only
  split_ifs at hspan ⊢ <;> linarith

/-- Values meeting the hypotheses of `C147_climb` and `C147_descent`; there the factor is 2. -/
example : ∃ (P : ClimbParams) (Q : DescentParams), P.Valid ∧ Q.Valid ∧ 0 ≤ P.vTof ∧
    (1 + 1e-8) * P.vTof ≤ P.vcas ∧ P.vTof ≤ 295 * P.mach ∧ P.vsMax / P.vsMin = 2 := by
  refine ⟨⟨10, 2, 80, 290, 0.78, 35000, 149, 10668, 12, 10, 8, 6, 3500, 8500⟩,
    ⟨10, true, -1, 70, 290, 0.78, 35000, 149, 10668, -6, -10, -6, -4, 3500, 8500⟩, ?_, ?_,
    by norm_num, by norm_num, by norm_num, ?_⟩
  · constructor <;> norm_num
  · constructor <;> norm_num
  · norm_num [ClimbParams.vsMax, ClimbParams.vsMin]

end Verif.Props
