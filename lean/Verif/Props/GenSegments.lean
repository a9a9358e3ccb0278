import Verif.Props.Gen
import Verif.Lemmas.GenComplete

/-!
# C86–C90: consistency of generated trajectories
-/

namespace Verif.Props
open Verif Verif.Gen Verif.Aero Verif.Tables Verif.Kinematic Verif.Registry
open Verif.Data (shipped)

variable {G : Type} {R : Rng G}

/-- **C86.** Without noise, position and altitude of each row follow from the previous row's
speed and vertical rate: `s' = s + v dt` and `h' = h + vs dt`; a descent is moreover cut off at
the ground. This needs no condition on the parameters. -/
theorem C86_kinematically_consistent (f f' : FlightGen G) (kw : Kw) (hn : f.noise = false) :
    (∀ fr, ClimbReturns R f kw fr f' → fr.rows.IsChain fun a b =>
      b.s = a.s + a.v * kw.dt.getD 1 ∧ b.h = a.h + a.vs * kw.dt.getD 1) ∧
    (∀ fr, CruiseReturns R f kw fr f' → fr.rows.IsChain fun a b =>
      b.s = a.s + a.v * kw.dt.getD 1 ∧ b.h = a.h + a.vs * kw.dt.getD 1) ∧
    (∀ fr, DescentReturns R f kw fr f' → fr.rows.IsChain fun a b =>
      b.s = a.s + a.v * kw.dt.getD 1 ∧ (b.h = a.h + a.vs * kw.dt.getD 1 ∨
        b.h = 0 ∧ b.vs = 0 ∧ a.h + a.vs * kw.dt.getD 1 ≤ 0)) := by
  refine ⟨?_, ?_, ?_⟩
  · intro fr h
    obtain ⟨P, g, ss, h1, h2, rfl, -⟩ := climbReturns_iff.1 h
    rw [addNoise_off hn, ← climbSetup_dt h1]
    simp only [List.map_map, List.isChain_map]
    exact trace_chain (Inv := fun _ => True)
      (fun x _ _ => ⟨trivial, climb_s P x, climb_h P x⟩) h2 trivial
  · intro fr h
    obtain ⟨P, g, ss, h1, h2, rfl, -⟩ := cruiseReturns_iff.1 h
    rw [addNoise_off hn, ← cruiseSetup_dt h1]
    simp only [List.isChain_map]
    refine trace_chain (Inv := fun x => x.vs = 0) (fun x hx _ => ⟨hx, rfl, ?_⟩) h2 rfl
    show x.h = x.h + x.vs * P.dt
    rw [hx]; ring
  · intro fr h
    obtain ⟨P, g, ss, h1, h2, rfl, -⟩ := descentReturns_iff.1 h
    rw [addNoise_off hn, ← descentSetup_dt h1]
    simp only [List.isChain_map]
    refine trace_chain (Inv := fun _ => True) (fun x _ _ => ⟨trivial, descent_s P x, ?_⟩) h2 trivial
    show (descentBody P x).1.h = x.h + x.vs * P.dt ∨ (descentBody P x).1.h = 0 ∧
      (descentBody P x).1.vs = 0 ∧ x.h + x.vs * P.dt ≤ 0
    unfold descentBody
    dsimp only
    split_ifs with c1 c2 c3 c4 c5 c6
    all_goals first
      | exact .inl rfl
      | exact .inr ⟨rfl, rfl, not_lt.1 c6⟩
      | exact .inr ⟨rfl, rfl, by linarith⟩

/-- Invariant for the order of the climb segments. -/
structure ClimbSegInv (P : ClimbParams) (x : ClimbState) : Prop extends ClimbInv P x where
  rank : climbRank x.seg ≤ 6
  fast : 2 ≤ climbRank x.seg → P.vTof ≤ x.v
  r3 : 3 ≤ climbRank x.seg → 1500 * ft ≤ x.h
  r4 : 4 ≤ climbRank x.seg → P.hCas ≤ x.h
  r5 : 5 ≤ climbRank x.seg → P.hMach ≤ x.h
  r6 : 6 ≤ climbRank x.seg → P.hCr ≤ x.h

theorem cas2tas_ge {v h : ℝ} (hv : 0 ≤ v) (hh : 0 ≤ h) :
    v ≤ (1 + 1e-8) * cas2tas np v h 0 := by
  have h1 := (C07_round_trips v h 0).2.2.2.2.1
  rw [abs_of_nonneg hv] at h1
  have h2 := (C09_eas_le_cas_le_tas (cas2tas np v h 0) h (cas2tas_nonneg _ _) hh).2.1
  rw [h1] at h2
  exact h2

theorem climbSeg_step {P : ClimbParams} (hP : P.Valid) (h0 : 0 ≤ P.vTof)
    (hcas : (1 + 1e-8) * P.vTof ≤ P.vcas) (hmach : P.vTof ≤ 295 * P.mach) {x : ClimbState}
    (hx : ClimbSegInv P x) :
    ClimbSegInv P (climbBody P x).1 ∧ climbRank x.seg ≤ climbRank (climbBody P x).1.seg := by
  have hi := climbInv_step hP hx.toClimbInv
  have hh : x.h ≤ x.h + x.vs * P.dt := by
    have := mul_nonneg (hx.toClimbInv.vs_nonneg hP) hP.dt.le
    linarith
  have hh0 : 0 ≤ x.h + x.vs * P.dt := hx.toClimbInv.h.trans hh
  have vm : P.vTof ≤ mach2tas np P.mach (x.h + x.vs * P.dt) 0 := by
    unfold mach2tas
    have := vsound_lower (x.h + x.vs * P.dt)
    have := hP.mach
    nlinarith
  have vc : P.vTof ≤ cas2tas np P.vcas (x.h + x.vs * P.dt) 0 := by
    have := cas2tas_ge (v := P.vcas) (by nlinarith) hh0
    have h3 : (1 + 1e-8) * P.vTof ≤ (1 + 1e-8) * cas2tas np P.vcas (x.h + x.vs * P.dt) 0 :=
      hcas.trans this
    exact le_of_mul_le_mul_left h3 (by norm_num)
  have hdt := hP.dt
  have h1 := hx.rank
  have h2 := hx.fast
  have h3 := hx.r3
  have h4 := hx.r4
  have h5 := hx.r5
  have h6 := hx.r6
  suffices H : climbRank (climbBody P x).1.seg ≤ 6 ∧
      (2 ≤ climbRank (climbBody P x).1.seg → P.vTof ≤ (climbBody P x).1.v) ∧
      (3 ≤ climbRank (climbBody P x).1.seg → 1500 * ft ≤ (climbBody P x).1.h) ∧
      (4 ≤ climbRank (climbBody P x).1.seg → P.hCas ≤ (climbBody P x).1.h) ∧
      (5 ≤ climbRank (climbBody P x).1.seg → P.hMach ≤ (climbBody P x).1.h) ∧
      (6 ≤ climbRank (climbBody P x).1.seg → P.hCr ≤ (climbBody P x).1.h) ∧
      climbRank x.seg ≤ climbRank (climbBody P x).1.seg from
    ⟨⟨hi, H.1, H.2.1, H.2.2.1, H.2.2.2.1, H.2.2.2.2.1, H.2.2.2.2.2.1⟩, H.2.2.2.2.2.2⟩
  generalize climbRank x.seg = k at *
  clear hi hx
  unfold climbBody
  dsimp only
  split_ifs with c1 c2 c3 c4 c5 c6 c7 c8 c9
  · simp only [climbRank]
    refine ⟨by norm_num, by norm_num, by norm_num, by norm_num, by norm_num, by norm_num, ?_⟩
    by_contra hk
    have := h2 (by omega)
    linarith
  · simp only [climbRank]
    refine ⟨by norm_num, fun _ => vc, by norm_num, by norm_num, by norm_num, by norm_num, ?_⟩
    by_contra hk
    have := h3 (by omega)
    linarith
  · simp only [climbRank]
    refine ⟨by norm_num, fun _ => by linarith, by norm_num, by norm_num, by norm_num,
      by norm_num, ?_⟩
    by_contra hk
    have := h3 (by omega)
    linarith
  · simp only [climbRank]
    refine ⟨by norm_num, fun _ => vc, fun _ => by linarith, by norm_num, by norm_num,
      by norm_num, ?_⟩
    by_contra hk
    have := h4 (by omega)
    linarith
  · simp only [climbRank]
    refine ⟨by norm_num, fun _ => by linarith, fun _ => by linarith, by norm_num, by norm_num,
      by norm_num, ?_⟩
    by_contra hk
    have := h4 (by omega)
    linarith
  · simp only [climbRank]
    refine ⟨by norm_num, fun _ => vc, fun _ => by linarith, fun _ => by linarith, by norm_num,
      by norm_num, ?_⟩
    by_contra hk
    have := h5 (by omega)
    linarith
  · simp only [climbRank]
    refine ⟨by norm_num, fun _ => vm, fun _ => by linarith, fun _ => by linarith,
      fun _ => by linarith, by norm_num, ?_⟩
    by_contra hk
    have := h6 (by omega)
    linarith
  all_goals
    simp only [climbRank]
    exact ⟨le_rfl, fun _ => vm, fun _ => by linarith, fun _ => by linarith,
      fun _ => by linarith, fun _ => by linarith, h1⟩

/-- Invariant for the order of the descent segments. -/
structure DescentSegInv (P : DescentParams) (x : Row) : Prop extends DescentInv P x where
  rank : descentRank x.seg ≤ 6
  r2 : 2 ≤ descentRank x.seg → ¬ (P.withcr = true ∧ x.t < 60)
  r3 : 3 ≤ descentRank x.seg → x.h ≤ P.hMach
  r4 : 4 ≤ descentRank x.seg → x.h ≤ P.hCas
  r5 : 5 ≤ descentRank x.seg → x.h ≤ 1000 * ft
  r6 : 6 ≤ descentRank x.seg → x.h ≤ 0

theorem descentSeg_step {P : DescentParams} (hP : P.Valid) {x : Row}
    (hx : DescentSegInv P x) :
    DescentSegInv P (descentBody P x).1 ∧
      descentRank x.seg ≤ descentRank (descentBody P x).1.seg := by
  have hi := (descentInv_step hP hx.toDescentInv).1
  have hh : x.h + x.vs * P.dt ≤ x.h := by
    have := mul_nonpos_of_nonpos_of_nonneg hx.toDescentInv.vs hP.dt.le
    linarith
  have hdt := hP.dt
  have hft : (0:ℝ) < 1000 * ft := by unfold ft; norm_num
  have p1 := hP.hMach
  have p2 := hP.hCas
  have h1 := hx.rank
  have h2 := hx.r2
  have h3 := hx.r3
  have h4 := hx.r4
  have h5 := hx.r5
  have h6 := hx.r6
  suffices H : descentRank (descentBody P x).1.seg ≤ 6 ∧
      (2 ≤ descentRank (descentBody P x).1.seg →
        ¬ (P.withcr = true ∧ (descentBody P x).1.t < 60)) ∧
      (3 ≤ descentRank (descentBody P x).1.seg → (descentBody P x).1.h ≤ P.hMach) ∧
      (4 ≤ descentRank (descentBody P x).1.seg → (descentBody P x).1.h ≤ P.hCas) ∧
      (5 ≤ descentRank (descentBody P x).1.seg → (descentBody P x).1.h ≤ 1000 * ft) ∧
      (6 ≤ descentRank (descentBody P x).1.seg → (descentBody P x).1.h ≤ 0) ∧
      descentRank x.seg ≤ descentRank (descentBody P x).1.seg from
    ⟨⟨hi, H.1, H.2.1, H.2.2.1, H.2.2.2.1, H.2.2.2.2.1, H.2.2.2.2.2.1⟩, H.2.2.2.2.2.2⟩
  generalize descentRank x.seg = k at *
  clear hi hx
  unfold descentBody
  dsimp only
  split_ifs with c1 c2 c3 c4 c5 c6
  · simp only [descentRank]
    refine ⟨by norm_num, by norm_num, by norm_num, by norm_num, by norm_num, by norm_num, ?_⟩
    by_contra hk
    exact h2 (by omega) ⟨c1.2, by linarith [c1.1]⟩
  · simp only [descentRank]
    refine ⟨by norm_num, fun _ h => c1 ⟨h.2, h.1⟩, by norm_num, by norm_num, by norm_num,
      by norm_num, ?_⟩
    by_contra hk
    have := h3 (by omega)
    linarith
  · simp only [descentRank]
    refine ⟨by norm_num, fun _ h => c1 ⟨h.2, h.1⟩, fun _ => by linarith, by norm_num,
      by norm_num, by norm_num, ?_⟩
    by_contra hk
    have := h4 (by omega)
    linarith
  · simp only [descentRank]
    refine ⟨by norm_num, fun _ h => c1 ⟨h.2, h.1⟩, fun _ => by linarith, fun _ => by linarith,
      by norm_num, by norm_num, ?_⟩
    by_contra hk
    have := h5 (by omega)
    linarith
  · simp only [descentRank]
    refine ⟨by norm_num, fun _ h => c1 ⟨h.2, h.1⟩, fun _ => by linarith, fun _ => by linarith,
      by norm_num, by norm_num, ?_⟩
    by_contra hk
    have := h5 (by omega)
    linarith
  · simp only [descentRank]
    refine ⟨by norm_num, fun _ h => c1 ⟨h.2, h.1⟩, fun _ => by linarith, fun _ => by linarith,
      fun _ => by linarith, by norm_num, ?_⟩
    by_contra hk
    have := h6 (by omega)
    linarith
  · simp only [descentRank]
    exact ⟨le_rfl, fun _ h => c1 ⟨h.2, h.1⟩, fun _ => p1, fun _ => p2, fun _ => hft.le,
      fun _ => le_rfl, h1⟩

/-- **C87.** Segments come in flight order and are never revisited: TO, IC, PRE-CAS, CAS, MACH,
CR in a climb whose target CAS and Mach are not slower than the lift-off speed; CR, MACH, CAS,
POST-CAS, FA, LD in a descent. -/
theorem C87_segment_order (f f' : FlightGen G) (kw : Kw) (hn : f.noise = false) :
    (∀ fr, ClimbReturns R f kw fr f' → fr.params.Valid → 0 ≤ fr.params.vTof →
      (1 + 1e-8) * fr.params.vTof ≤ fr.params.vcas →
      fr.params.vTof ≤ 295 * fr.params.mach →
      (∀ x ∈ fr.rows, climbRank x.seg ≤ 6) ∧
      fr.rows.IsChain fun a b => climbRank a.seg ≤ climbRank b.seg) ∧
    (∀ fr, DescentReturns R f kw fr f' → fr.params.Valid →
      (∀ x ∈ fr.rows, descentRank x.seg ≤ 6) ∧
      fr.rows.IsChain fun a b => descentRank a.seg ≤ descentRank b.seg) := by
  constructor
  · intro fr h hP h0 hcas hmach
    obtain ⟨P, g, ss, h1, h2, rfl, -⟩ := climbReturns_iff.1 h
    simp only at hP h0 hcas hmach ⊢
    rw [addNoise_off hn]
    have init : ClimbSegInv P climbInit :=
      ⟨climbInv_init hP, by decide, fun h => by simp [climbInit, climbRank] at h,
        fun h => by simp [climbInit, climbRank] at h, fun h => by simp [climbInit, climbRank] at h,
        fun h => by simp [climbInit, climbRank] at h, fun h => by simp [climbInit, climbRank] at h⟩
    constructor
    · intro x hx
      simp only [List.map_map, List.mem_map] at hx
      obtain ⟨y, hy, rfl⟩ := hx
      exact (trace_inv (Inv := ClimbSegInv P)
        (fun _ h _ => (climbSeg_step hP h0 hcas hmach h).1) h2 init y hy).rank
    · simp only [List.map_map, List.isChain_map]
      exact trace_chain (Inv := ClimbSegInv P)
        (fun x hx _ => climbSeg_step hP h0 hcas hmach hx) h2 init
  · intro fr h hP
    obtain ⟨P, g, ss, h1, h2, rfl, -⟩ := descentReturns_iff.1 h
    simp only at hP ⊢
    rw [addNoise_off hn]
    have init : DescentSegInv P (descentInit P) :=
      ⟨descentInv_init hP, by simp [descentInit, descentRank],
        fun h => by simp [descentInit, descentRank] at h,
        fun h => by simp [descentInit, descentRank] at h,
        fun h => by simp [descentInit, descentRank] at h,
        fun h => by simp [descentInit, descentRank] at h,
        fun h => by simp [descentInit, descentRank] at h⟩
    constructor
    · intro x hx
      obtain ⟨y, hy, rfl⟩ := List.mem_map.1 hx
      exact (trace_inv (Inv := DescentSegInv P)
        (fun _ h _ => (descentSeg_step hP h).1) h2 init y hy).rank
    · simp only [List.isChain_map]
      exact trace_chain (Inv := DescentSegInv P)
        (fun x hx _ => descentSeg_step hP hx) h2 init

/-- **C87, shipped tables.** For every offered type code a climb at 190 kt or more and Mach 0.35
or more, or at the default or a random speed, satisfies the conditions of `C87_segment_order`. -/
theorem C87_climb_order_shipped (ac : Str) (hac : ac ∈ availableAircraft shipped true) (seed : G)
    (hR : R.Unit) :
    ∃ f, Gen.init shipped ac seed true = .ok f ∧ ∀ kw, (∀ d, kw.dt = some d → 0 < d) →
      (∀ m, kw.machCl = some m → 0.35 ≤ m) → (∀ c, kw.casCl = some c → 190 ≤ c) →
        ∃ fr f', ClimbReturns R f kw fr f' ∧
          fr.rows.IsChain fun a b => climbRank a.seg ≤ climbRank b.seg := by
  obtain ⟨f, h1, h2, h3, -⟩ := init_shipped hac seed
  refine ⟨f, h1, ?_⟩
  intro kw hd hm hc
  obtain ⟨P, g', hs, hP, -, -, a1, a2, a3, a4, a5, a6, -⟩ :=
    climbSetup_ok (R := R) (f := f) (kw := kw) h2 hR hd (fun m h => by linarith [hm m h])
  obtain ⟨fr, f', hr⟩ := climbReturns_of hs hP
  have e := ((C50_climb f kw P g' hs hP).2 h3 fr f' hr).1
  refine ⟨fr, f', hr, ?_⟩
  refine ((C87_segment_order f f' kw h3).1 fr hr (e ▸ hP) ?_ ?_ ?_).2
  · rw [e]; linarith
  · rw [e]
    have : 97.7 ≤ P.vcas := by
      rcases h : kw.casCl with _ | c
      · linarith [a3 h]
      · linarith [a4 c h, hc c h]
    linarith
  · rw [e]
    rcases h : kw.machCl with _ | m
    · linarith [a5 h]
    · linarith [a6 m h, hm m h]

/-- **C88.** A descent whose Mach is below `CAS / a0` has its crossover altitude below sea level
and never returns, unless a single step of braking already stops the aircraft. -/
theorem C88_slow_descent_hangs (f : FlightGen G) (kw : Kw) (P : DescentParams) (g : G)
    (hs : descentSetup R f kw = .ok (P, g)) (hcas : 0 ≤ P.hCas) (hv : 0 < P.vcas)
    (hm : 1e-4 ≤ P.mach) (hslow : P.mach < P.vcas / 340.293988)
    (hbrake : -P.aLnd * P.dt < 295 * P.mach) :
    P.hMach < 0 ∧ ∀ n, descent R n f kw = none := by
  have e : P.hMach = crossoverAlt np P.vcas P.mach 0 := by
    have h := hs
    unfold descentSetup at h
    simp only [bind, Except.bind, pure, Except.pure] at h
    repeat' split at h
    all_goals first
      | (cases h; done)
      | (cases h; rfl)
  have hneg : P.hMach < 0 := by
    rw [e]; exact (crossover_neg hv hm).2 hslow
  refine ⟨hneg, ?_⟩
  intro n
  unfold descent
  rw [hs]
  simp only [Option.map_eq_none_iff]
  rcases h : loop (descentBody P) id n (descentInit P) with _ | rows
  · rfl
  · obtain ⟨ss, h1, -⟩ := trace_of_loop h
    exact absurd ⟨ss, h1⟩ (descent_diverges hcas hneg (by linarith) hbrake)

/-- **C88, shipped tables.** `descent(mach_const_de=m)` with `0.01 ≤ m ≤ 0.4` and no other
argument never returns, for any offered type code. -/
theorem C88_slow_descent_hangs_shipped (ac : Str) (hac : ac ∈ availableAircraft shipped true)
    (seed : G) :
    ∃ f, Gen.init shipped ac seed true = .ok f ∧ ∀ m, 0.01 ≤ m → m ≤ 0.4 →
      ∀ n, descent R n f { machDe := some m } = none := by
  obtain ⟨f, h1, hw, -⟩ := init_shipped hac seed
  refine ⟨f, h1, ?_⟩
  intro m hm hm'
  simp only [tableOk, Bool.and_eq_true, List.all_cons, List.all_nil, Bool.and_true] at hw
  obtain ⟨⟨⟨⟨⟨⟨⟨⟨⟨⟨⟨⟨x1, x2, x3, x4, x5⟩, x6⟩, y1⟩, y2⟩, z1, z2, z3⟩, y3⟩, y4⟩, y5⟩, y6⟩, y7⟩,
    y8⟩, v1, v2, v3, v4⟩ := hw
  obtain ⟨vApp, e1, a1⟩ := entry_of x6
  obtain ⟨wCom, e2, a2⟩ := entry_of v1
  obtain ⟨wCon, e3, a3⟩ := entry_of v2
  obtain ⟨wPost, e4, a4⟩ := entry_of v3
  obtain ⟨wFa, e5, a5⟩ := entry_of v4
  obtain ⟨wCas, e6, a6⟩ := entry_of' y6
  obtain ⟨wMach, e7, a7⟩ := entry_of z2
  obtain ⟨wAlt, e8, a8⟩ := entry_of y3
  obtain ⟨wX, e9, a9⟩ := entry_of' y7
  obtain ⟨aLnd, e10, a10⟩ := entry_of' y8
  have p6 := wreal_ge a6.2.2.1
  have p10 := wreal_ge a10.1
  have p9 : 0 ≤ wreal wX.opt := by
    have := wreal_le a9.le
    have h0 : wreal 0 = 0 := by unfold wreal; norm_num
    linarith
  norm_num at p6 p10
  have hk : (0:ℝ) < kts := by unfold kts; norm_num
  have hs : ∃ P g, descentSetup R f { machDe := some m } = .ok (P, g) ∧
      P.hCas = wreal wX.opt * 1000 ∧ P.vcas = wreal wCas.opt / kts * kts ∧ P.mach = m ∧
      P.aLnd = wreal aLnd.opt ∧ P.dt = 1 := by
    unfold descentSetup
    simp only [e1, e2, e3, e4, e5, e6, e7, e8, e9, e10, bind, Except.bind, pure, Except.pure,
      Option.getD_none, Option.getD_some, Bool.false_eq_true, if_false]
    exact ⟨_, _, rfl, rfl, rfl, rfl, rfl, rfl⟩
  obtain ⟨P, g, hs, b1, b2, b3, b4, b5⟩ := hs
  rw [div_mul_cancel₀ _ hk.ne'] at b2
  refine (C88_slow_descent_hangs f _ P g hs ?_ ?_ ?_ ?_ ?_).2
  · rw [b1]; linarith
  · rw [b2]; linarith
  · rw [b3]; linarith
  · rw [b2, b3, lt_div_iff₀ (by norm_num)]; linarith
  · rw [b3, b4, b5]; linarith

theorem truncate_spec (x : ℝ) : |(truncate x : ℝ)| ≤ |x| ∧ |x| < |(truncate x : ℝ)| + 1 ∧
    0 ≤ (truncate x : ℝ) * x := by
  unfold truncate
  split_ifs with h
  · have h1 := Int.floor_le x
    have h2 := Int.lt_floor_add_one x
    have h3 : (0:ℝ) ≤ (⌊x⌋ : ℝ) := by exact_mod_cast Int.floor_nonneg.2 h
    rw [abs_of_nonneg h, abs_of_nonneg h3]
    exact ⟨h1, h2, mul_nonneg h3 h⟩
  · push Not at h
    have h1 := Int.le_ceil x
    have h2 := Int.ceil_lt_add_one x
    have h3 : ((⌈x⌉ : ℤ) : ℝ) ≤ 0 := by
      exact_mod_cast Int.ceil_le.2 (by simpa using h.le)
    rw [abs_of_nonpos h.le, abs_of_nonpos h3]
    exact ⟨by linarith, by linarith, mul_nonneg_of_nonpos_of_nonpos h3 h.le⟩

/-- The integer nearest to zero within one unit of `x`. -/
def IsTruncation (n : ℤ) (x : ℝ) : Prop := |(n : ℝ)| ≤ |x| ∧ |x| < |(n : ℝ)| + 1 ∧ 0 ≤ (n : ℝ) * x

/-- **C89.** In every returned frame the integer columns are the altitude in feet, the vertical
rate in feet per minute and the speed in knots, truncated towards zero; noise is included. -/
theorem C89_integer_columns (f f' : FlightGen G) (kw : Kw) :
    ∀ rows : List OutRow, ((∃ fr, ClimbReturns R f kw fr f' ∧ fr.rows = rows) ∨
        (∃ fr, DescentReturns R f kw fr f' ∧ fr.rows = rows) ∨
        (∃ fr, CruiseReturns R f kw fr f' ∧ fr.rows = rows) ∨
        CompleteReturns R f kw rows f') →
      ∀ x ∈ rows, IsTruncation x.altitude (x.h / 0.3048) ∧
        IsTruncation x.verticalRate (x.vs / 0.00508) ∧
        IsTruncation x.groundspeed (x.v / 0.514444) := by
  have key : ∀ l : List Row, ∀ x ∈ l.map derive, IsTruncation x.altitude (x.h / 0.3048) ∧
        IsTruncation x.verticalRate (x.vs / 0.00508) ∧
        IsTruncation x.groundspeed (x.v / 0.514444) := by
    intro l x hx
    obtain ⟨y, -, rfl⟩ := List.mem_map.1 hx
    exact ⟨truncate_spec _, truncate_spec _, truncate_spec _⟩
  rintro rows (⟨fr, h, rfl⟩ | ⟨fr, h, rfl⟩ | ⟨fr, h, rfl⟩ | h)
  · obtain ⟨P, g, ss, -, -, rfl, -⟩ := climbReturns_iff.1 h
    exact key _
  · obtain ⟨P, g, ss, -, -, rfl, -⟩ := descentReturns_iff.1 h
    exact key _
  · obtain ⟨P, g, ss, -, -, rfl, -⟩ := cruiseReturns_iff.1 h
    exact key _
  · obtain ⟨-, -, cr, f1, cl, f2, de, -, -, -, rfl⟩ := completeReturns_iff.1 h
    intro x hx
    unfold joinParts at hx
    simp only [List.mem_append, List.mem_map] at hx
    rcases hx with (⟨y, -, rfl⟩ | ⟨y, -, rfl⟩) | ⟨y, -, rfl⟩ <;>
      exact ⟨truncate_spec _, truncate_spec _, truncate_spec _⟩

/-- **C90.** Without noise, CAS segments are flown at the constant CAS of the frame and MACH and
CR segments at its constant Mach, at every row; the initial climb segments never exceed the
constant CAS, the approach segment never falls below the approach CAS unless `v` is the approach
speed itself. -/
theorem C90_constant_speeds (f f' : FlightGen G) (kw : Kw) (hn : f.noise = false) :
    (∀ fr, ClimbReturns R f kw fr f' → ∀ x ∈ fr.rows,
      (x.seg = some .CAS → tas2cas np x.v x.h 0 = |fr.params.vcas|) ∧
      (x.seg = some .MACH ∨ x.seg = some .CR → tas2mach np x.v x.h 0 = fr.params.mach) ∧
      (x.seg = some .IC ∨ x.seg = some .PRECAS → tas2cas np x.v x.h 0 ≤ |fr.params.vcas|)) ∧
    (∀ fr, DescentReturns R f kw fr f' → ∀ x ∈ fr.rows,
      (x.seg = some .CAS → tas2cas np x.v x.h 0 = |fr.params.vcas|) ∧
      (x.seg = some .MACH ∨ x.seg = some .CR → tas2mach np x.v x.h 0 = fr.params.mach) ∧
      (x.seg = some .POSTCAS → fr.params.vApp ≤ tas2cas np x.v x.h 0) ∧
      (x.seg = some .FA → x.v = fr.params.vApp)) := by
  have hcas : ∀ v h, tas2cas np (cas2tas np v h 0) h 0 = |v| := fun v h =>
    (C07_round_trips v h 0).2.2.2.2.1
  have hmach : ∀ m h, tas2mach np (mach2tas np m h 0) h 0 = m := fun m h =>
    (C07_round_trips m h 0).2.1
  constructor
  · intro fr h x hx
    obtain ⟨P, g, ss, h1, h2, rfl, -⟩ := climbReturns_iff.1 h
    rw [addNoise_off hn] at hx
    simp only [List.map_map, List.mem_map] at hx
    obtain ⟨y, hy, rfl⟩ := hx
    refine trace_inv (Inv := fun y : ClimbState =>
      (y.seg = some .CAS → tas2cas np y.v y.h 0 = |P.vcas|) ∧
      (y.seg = some .MACH ∨ y.seg = some .CR → tas2mach np y.v y.h 0 = P.mach) ∧
      (y.seg = some .IC ∨ y.seg = some .PRECAS → tas2cas np y.v y.h 0 ≤ |P.vcas|))
      ?_ h2 (by simp [climbInit]) y hy
    intro x _ _
    unfold climbBody
    dsimp only
    split_ifs with c1 c2 c3 c4 c5 c6 c7 c8 c9 <;> simp [hcas, hmach]
    · exact (not_le.1 c3).le.trans (le_abs_self _)
    · exact (not_le.1 c5).le.trans (le_abs_self _)
  · intro fr h x hx
    obtain ⟨P, g, ss, h1, h2, rfl, -⟩ := descentReturns_iff.1 h
    rw [addNoise_off hn] at hx
    simp only [List.mem_map] at hx
    obtain ⟨y, hy, rfl⟩ := hx
    refine trace_inv (Inv := fun y : Row =>
      (y.seg = some .CAS → tas2cas np y.v y.h 0 = |P.vcas|) ∧
      (y.seg = some .MACH ∨ y.seg = some .CR → tas2mach np y.v y.h 0 = P.mach) ∧
      (y.seg = some .POSTCAS → P.vApp ≤ tas2cas np y.v y.h 0) ∧
      (y.seg = some .FA → y.v = P.vApp))
      ?_ h2 (by simp [descentInit]) y hy
    intro x _ _
    unfold descentBody
    dsimp only
    split_ifs with c1 c2 c3 c4 c5 c6
    case neg => exact ⟨by simp, by simp, fun _ => not_lt.1 c5, by simp⟩
    all_goals simp [hcas, hmach, le_abs_self]

/-- A climb at 250 kt and a descent, both of an A320 without noise, meet the conditions of C86,
C87, C89 and C90. -/
example : ∃ (f f1 f2 : FlightGen Unit) (cl : ClimbFrame) (de : DescentFrame),
    f.noise = false ∧
    ClimbReturns ⟨fun _ => (0, ()), fun _ _ => ([], ())⟩ f { casCl := some 250 } cl f1 ∧
    cl.params.Valid ∧ 0 ≤ cl.params.vTof ∧ (1 + 1e-8) * cl.params.vTof ≤ cl.params.vcas ∧
    cl.params.vTof ≤ 295 * cl.params.mach ∧
    DescentReturns ⟨fun _ => (0, ()), fun _ _ => ([], ())⟩ f {} de f2 ∧ de.params.Valid := by
  obtain ⟨f, -, h1, h2, -⟩ := init_shipped (ac := [97, 51, 50, 48]) (by decide +kernel) ()
  have hR : Rng.Unit (G := Unit) ⟨fun _ => (0, ()), fun _ _ => ([], ())⟩ := fun _ => by simp
  have hk : Kw.Sensible {} := ⟨by simp, by simp, by simp, by simp, by simp, by simp⟩
  obtain ⟨P, g, s1, v1, -, -, a1, a2, -, a4, a5, -, -⟩ :=
    climbSetup_ok (kw := { casCl := some 250 }) h1 hR (by simp) (by simp)
  obtain ⟨D, g', s2, v2, -⟩ := descentSetup_ok h1 hR hk
  obtain ⟨cl, f1, hc⟩ := climbReturns_of s1 v1
  obtain ⟨de, f2, hd⟩ := descentReturns_of s2 v2
  have e1 := ((C50_climb f _ P g s1 v1).2 h2 cl f1 hc).1
  have e2 : de.params = D := by
    obtain ⟨D', g', ss, d1, -, rfl, -⟩ := descentReturns_iff.1 hd
    rw [s2] at d1
    exact (Prod.mk.inj (Except.ok.inj d1)).1.symm
  have := a4 250 rfl
  have := a5 rfl
  refine ⟨f, f1, f2, cl, de, h2, hc, e1 ▸ v1, ?_, ?_, ?_, hd, e2 ▸ v2⟩ <;> rw [e1] <;> linarith

end Verif.Props
