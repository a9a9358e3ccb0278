import Verif.Lemmas.GenDistanceDescent
import Verif.Lemmas.GenLevel
import Verif.Props.Autodiff
import Verif.Props.GenDistance

/-!
# C149: the distance of a generated descent does not depend on the time step
-/

namespace Verif.Props
open Verif Verif.Aero Verif.Gen Verif.Spec Verif.Tables Verif.Kinematic Verif.Registry
open Verif.Data (shipped)
open Verif.AD

variable {G : Type} {R : Rng G}

/-- The rows up to the first landing one. -/
theorem descent_row {f : FlightGen G} {g : G} (hn : f.noise = false) {P : DescentParams} {W L : ℝ}
    {ss : List Row} (h2 : Trace (descentBody P) (descentInit P) ss) (hs : DescentSpeeds P W L)
    {pre : List OutRow} {x : OutRow} {post : List OutRow}
    (e : List.map derive (addNoise R { f with rng := g } ss).1 = pre ++ x :: post)
    (hpre : ∀ y ∈ pre, y.seg ≠ some .LD) :
    ∃ y, DescentFar P W L y ∧ x.t = y.t ∧ x.h = y.h ∧ x.v = y.v ∧ x.seg = y.seg ∧ x.s = y.s := by
  rw [addNoise_off hn] at e
  obtain ⟨l1, l2, rfl, e1, e2⟩ := List.map_eq_append_iff.1 e
  obtain ⟨y, l3, rfl, e3, e4⟩ := List.map_eq_cons_iff.1 e2
  have hl : ∀ z ∈ l1, z.seg ≠ some .LD := by
    intro z hz
    exact hpre (derive z) (by rw [← e1]; exact List.mem_map.2 ⟨z, hz, rfl⟩)
  have init : DescentFar P W L (descentInit P) := by
    refine ⟨.inl ⟨by simp [descentInit, descentRank], rfl, rfl, le_rfl, ?_⟩, ?_,
      by simp [descentInit, descentRank], by simp [descentInit, descentRank],
      by simp [descentInit, descentRank], by simp [descentInit, descentRank], by simp [descentInit]⟩
    · simp only [descentInit, DescentParams.wait]
      split_ifs <;> norm_num
    · simp [descentInit]
  refine ⟨y, descent_far hs h2 init l1 y l3 rfl hl, ?_⟩
  rw [← e3]
  exact ⟨rfl, rfl, rfl, rfl, rfl⟩

/-- **C149, descent.** Let `C u` and `A u` be the speeds that have the descent CAS and the approach
CAS at altitude `u`, `M u` the one that has the descent Mach number, and let the aircraft fly
continuously: it holds Mach and CAS down to the altitude `b`, then loses up to 0.2 m/s per second
without getting slower than the approach CAS, and flies the final approach below 1000 ft. Until it lands
a generated descent has this speed and this distance at each altitude up to a bound proportional to
the time step. The speeds at Mach and CAS are exact. `L` bounds the slopes of the speeds at `b`; no step
may lose more than the speed there is. -/
theorem C149_descent (f f' : FlightGen G) (kw : Kw) (hn : f.noise = false) (fr : DescentFrame)
    (h : DescentReturns R f kw fr f') (hP : fr.params.Valid) (hcas : 0 ≤ fr.params.vcas)
    (hmach : 0 ≤ fr.params.mach) (happ : 0 ≤ fr.params.vApp) (P : DescentParams) (hp : fr.params = P)
    (m q : ℝ) (hm : m = max (max (-P.vsMach) (-P.vsCas)) (max (-P.vsPost) (-P.vsFa)))
    (hq : q = m / min (min (-P.vsMach) (-P.vsCas)) (min (-P.vsPost) (-P.vsFa)))
    (r : ℝ → ℝ) (hr : r = sinkRate (-P.vsMach) (-P.vsCas) (-P.vsPost) (-P.vsFa) P.hMach P.hCas)
    (C : ℝ → ℝ) (hC : ∀ u, 0 ≤ C u ∧ IsCas (pressure np u 0) (density np u 0) (C u) P.vcas)
    (A : ℝ → ℝ) (hA : ∀ u, 0 ≤ A u ∧ IsCas (pressure np u 0) (density np u 0) (A u) P.vApp)
    (M : ℝ → ℝ) (hM : ∀ u, M u = P.mach * Real.sqrt (401.874018 * isaTemp u 0))
    (b v : ℝ) (hb : b = min (min P.hMach P.hCas) P.hCr)
    (hv : v = if P.hCr ≤ min P.hMach P.hCas then M P.hCr
      else if P.hMach ≤ P.hCas then M P.hMach else C P.hCas)
    (V : ℝ → ℝ) (hV : V = descentSpeed C M (slowDown v 0.2 b (fun u => passage r u b) A) P.vApp
      P.hMach P.hCas)
    (S : ℝ → ℝ) (hS : S = fun u => M P.hCr * (if P.withcr = true then 60 else 0) + flown V r u P.hCr)
    (W : ℝ) (hW : C P.hMach ≤ W) (hW' : 340.3 * P.mach ≤ W) (hWA : A b ≤ W) (hWv : P.vApp ≤ W)
    (L : ℝ) (hL : 0 ≤ L) (hL1 : ∀ u, b < u → u ≤ P.hCr → |V u - v| ≤ L * (u - b))
    (hL2 : ∀ u, 0 ≤ u → u ≤ b → A b - A u ≤ L * (b - u))
    (hd1 : 0.2 * P.dt ≤ 295 * P.mach) (hd2 : 0.2 * P.dt ≤ C 0) (hd3 : 0.2 * P.dt ≤ A 0) :
    ∀ pre x post, fr.rows = pre ++ x :: post → (∀ y ∈ pre, y.seg ≠ some .LD) →
      (descentRank x.seg ≤ 1 → x.v = M P.hCr ∧ x.s = x.v * x.t) ∧
      (2 ≤ descentRank x.seg → descentRank x.seg ≤ 3 → x.v = V x.h) ∧
      (2 ≤ descentRank x.seg → descentRank x.seg ≤ 5 →
        |x.v - V x.h| ≤ (L * m + 0.2 + 0.8 * q) * P.dt ∧
        |x.s - S x.h| ≤ (W * (8 + 3 * q) + (L * m + 0.2 + 0.8 * q) * x.t) * P.dt) ∧
      (x.seg = some .LD →
        |x.s - S 0| ≤ (W * (8 + 4 * q) + (L * m + 0.2 + 0.8 * q) * x.t) * P.dt) := by
  subst hp
  obtain ⟨P, g, ss, h1, h2, rfl, -⟩ := descentReturns_iff.1 h
  intro pre x post e hpre
  simp only at *
  have hCe : C = P.cap := funext fun u => cap_unique hC u
  have hAe : A = P.floor := funext fun u => cap_unique hA u
  have hMe := mach_unique hM
  have hre : r = P.rate := hr
  have hbe : b = P.enter := hb
  have hve : v = P.vEnter := by rw [hv, hMe, hCe]; rfl
  have hVe : V = P.speed := by rw [hV, hCe, hMe, hAe, hre, hbe, hve]; rfl
  have hSe : S = P.distance := by rw [hS, hVe, hre, hMe]; rfl
  have hme : P.vsMax = m := hm.symm
  have hqe : P.vsMax / P.vsMin = q := by rw [hme, hq]; rfl
  rw [hCe] at hW hd2
  rw [hAe, hbe] at hWA hL2
  rw [hAe] at hd3
  rw [hVe, hve, hbe] at hL1
  have hs : DescentSpeeds P W L :=
    ⟨hP, hcas, hmach, happ, hW, hW', hWA, hWv, hL, hL1, hL2, hd1, hd2, hd3⟩
  obtain ⟨y, key, x1, x2, x3, x4, x5⟩ := descent_row hn h2 hs e hpre
  rw [x1, x2, x3, x4, x5, hVe, hSe, hMe]
  have hE : L * m + 0.2 + 0.8 * q = P.slack L := by rw [← hqe, ← hme]; rfl
  rw [hE]
  refine ⟨key.level, fun k1 k2 => (key.high k1 k2).2, fun k1 k2 => ⟨key.close hs k1 k2, ?_⟩, ?_⟩
  · refine (key.far k1 k2).2.trans (mul_le_mul_of_nonneg_right ?_ hP.dt.le)
    have y0 : 0 ≤ y.h := by
      rcases key.time with ⟨k, -⟩ | ⟨-, -, k, -⟩ | ⟨k, -⟩
      · omega
      · exact k.le
      · rw [k] at k2
        simp [descentRank] at k2
    have := (hs.spent_le y0).2
    rw [hqe] at this
    linarith
  · intro k
    have := key.land k
    rwa [hqe] at this

/-- **C149, landing.** From the first landing row on the aircraft brakes at the landing deceleration
`a`: the first landing row is `a dt` slower than the row before it, every later row has exactly the
time and the distance of a braking from the speed of the first to its own, up to `dt / 2` times the
change of speed, and the last row has at most the speed lost in one step. -/
theorem C149_landing (f f' : FlightGen G) (kw : Kw) (hn : f.noise = false) (fr : DescentFrame)
    (h : DescentReturns R f kw fr f') (hP : fr.params.Valid) (a d : ℝ) (ha : a = -fr.params.aLnd)
    (hd : d = fr.params.dt) :
    ∀ pre y x post, fr.rows = pre ++ y :: x :: post → y.seg ≠ some .LD → x.seg = some .LD →
      x.v = y.v - a * d ∧ x.s = y.s + y.v * d ∧ x.t = y.t + d ∧
      (∀ z ∈ x :: post, z.seg = some .LD ∧ z.h = 0 ∧ 0 < z.v ∧ z.t = x.t + (x.v - z.v) / a ∧
        z.s = x.s + (x.v ^ 2 - z.v ^ 2) / (2 * a) + (x.v - z.v) * d / 2) ∧
      ∃ z, fr.rows.getLast? = some z ∧ z.v ≤ a * d := by
  subst ha hd
  obtain ⟨P, g, ss, h1, h2, rfl, -⟩ := descentReturns_iff.1 h
  intro pre y x post e hy hx
  simp only at *
  rw [addNoise_off hn] at e ⊢
  have e0 := e
  obtain ⟨l1, l2, rfl, e1, e2⟩ := List.map_eq_append_iff.1 e
  obtain ⟨y', l3, rfl, e3, e4⟩ := List.map_eq_cons_iff.1 e2
  obtain ⟨x', l4, rfl, e5, e6⟩ := List.map_eq_cons_iff.1 e4
  have hy' : y'.seg ≠ some .LD := by rw [← e3] at hy; exact hy
  have hx' : x'.seg = some .LD := by rw [← e5] at hx; exact hx
  have ex : x.t = x'.t ∧ x.v = x'.v ∧ x.s = x'.s := by rw [← e5]; exact ⟨rfl, rfl, rfl⟩
  have ey : y.t = y'.t ∧ y.v = y'.v ∧ y.s = y'.s := by rw [← e3]; exact ⟨rfl, rfl, rfl⟩
  rw [ex.1, ex.2.1, ex.2.2, ey.1, ey.2.1, ey.2.2]
  have tr := trace_from h2 l1 y' (x' :: l4) rfl
  rcases tr with _ | ⟨hb, ht⟩
  have xe : (descentBody P y').1 = x' := by
    cases ht <;> rfl
  have lx : Landing P x' := xe ▸ landing_step hb
  have one : x'.v = y'.v + P.aLnd * P.dt ∧ x'.s = y'.s + y'.v * P.dt ∧ x'.t = y'.t + P.dt := by
    rw [← xe] at hx' ⊢
    revert hx'
    unfold descentBody
    dsimp only
    split_ifs <;> simp
  rw [xe] at ht
  obtain ⟨k1, z, k2, k3⟩ := landing_roll hP ht lx hx'
  have inv : ∀ z ∈ x' :: l4, Landing P z :=
    trace_inv (Inv := Landing P) (fun _ _ hb => landing_step hb) ht lx
  refine ⟨by linarith [one.1], one.2.1, one.2.2, ?_, derive z, ?_, k3⟩
  · intro w hw
    rw [← e5, ← e6, ← List.map_cons] at hw
    obtain ⟨w', m1, rfl⟩ := List.mem_map.1 hw
    obtain ⟨j1, j2, j3, j4⟩ := k1 w' m1
    exact ⟨j1, (inv w' m1 j1).1, j2, j3, j4⟩
  · rw [List.getLast?_map, List.getLast?_append, List.getLast?_cons_cons, k2]
    rfl

/-! ## Shipped tables -/

/-- The crossover to constant CAS of a table is below 11 km. -/
def crossOk (w : List WrapRow) : Bool := decide ((look w descentCrossAltConcas).opt < 110000)

theorem shipped_cross : shipped.wrap.all (fun e => crossOk e.2) = true := by decide +kernel

theorem init_cross {ac : Str} (hac : ac ∈ availableAircraft shipped true) {seed : G} {f : FlightGen G}
    (h1 : Gen.init shipped ac seed true = .ok f) : crossOk f.wrap = true := by
  have := List.all_eq_true.1 shipped_limits ac hac
  unfold Gen.init at this h1
  simp only [bind, Except.bind, pure, Except.pure] at this h1
  rcases e1 : Registry.aircraft shipped ac true with e | a
  · rw [e1] at this; simp at this
  · rw [e1] at this h1
    rcases e2 : Construct.wrap shipped ac (some true) with e | w
    · rw [e2] at this; simp at this
    · rw [e2] at this h1
      simp only [Bool.and_eq_true, Bool.or_eq_true, decide_eq_true_eq, List.any_eq_true,
        beq_iff_eq] at this
      obtain ⟨-, e, he, hw⟩ := this
      simp only [Except.ok.injEq] at h1
      subst h1
      show crossOk w = true
      rw [← hw]
      exact List.all_eq_true.1 shipped_cross e he

theorem descent_vcas {f : FlightGen G} (hw : tableOk f.wrap = true) (hR : R.Unit) {kw : Kw}
    (hx : crossOk f.wrap = true) (hk : ∀ c, kw.casDe = some c → 30 ≤ c) {P : DescentParams} {g : G}
    (hs : descentSetup R f kw = .ok (P, g)) : 15 ≤ P.vcas ∧ P.hCas < 11000 := by
  simp only [tableOk, Bool.and_eq_true, List.all_cons, List.all_nil, Bool.and_true] at hw
  obtain ⟨⟨⟨⟨⟨⟨⟨⟨⟨⟨⟨⟨x1, x2, x3, x4, x5⟩, x6⟩, y1⟩, y2⟩, z1, z2, z3⟩, y3⟩, y4⟩, y5⟩, y6⟩, y7⟩, y8⟩,
    v1, v2, v3, v4⟩ := hw
  obtain ⟨vApp, e1, a1⟩ := entry_of x6
  obtain ⟨wCom, e2, a2⟩ := entry_of v1
  obtain ⟨wCon, e3, a3⟩ := entry_of v2
  obtain ⟨wPost, e4, a4⟩ := entry_of v3
  obtain ⟨wFa, e5, a5⟩ := entry_of v4
  obtain ⟨wCas, e6, a6⟩ := entry_of' y6
  obtain ⟨wMach, e7, a7⟩ := entry_of z2
  obtain ⟨wAlt, e8, a8⟩ := entry_of y3
  obtain ⟨wX, e9, a9⟩ := entry_of' y7
  obtain ⟨aLnd, e10, a10⟩ := entry_of' y8
  have p6 := wreal_ge a6.2.2.1
  have r6 := wreal_ge a6.1
  have u6 := fun g => (uniform_mem hR a6.2.1 g)
  have hx : wreal wX.opt * 1000 < 11000 := by
    simp only [crossOk, look, e9, decide_eq_true_eq] at hx
    have : (wX.opt : ℝ) < 110000 := by exact_mod_cast hx
    unfold wreal
    linarith
  have hks : (0:ℝ) < kts := by unfold kts; norm_num
  norm_num at p6 r6
  unfold descentSetup at hs
  simp only [e1, e2, e3, e4, e5, e6, e7, e8, e9, e10, bind, Except.bind, pure, Except.pure] at hs
  have key : ∀ c0 : ℝ, 15 ≤ c0 → 15 ≤ kw.casDe.getD (c0 / kts) * kts := by
    intro c0 h0
    apply getD_cases (p := fun c => 15 ≤ c * kts)
    · intro c h
      have := hk c h
      unfold kts
      norm_num
      linarith
    · rw [div_mul_cancel₀ _ hks.ne']
      exact h0
  split at hs
  · simp only [Except.ok.injEq, Prod.mk.injEq] at hs
    rw [← hs.1]
    refine ⟨key _ (by linarith [(u6 (uniform R (uniform R f.rng wAlt.min wAlt.max).2 wMach.min wMach.max).2).1]), hx⟩
  · simp only [Except.ok.injEq, Prod.mk.injEq] at hs
    rw [← hs.1]
    refine ⟨key _ (by linarith), hx⟩

/-- A bound of the slope at a point that holds nearby extends to a bounded function. -/
theorem slope_extend {g : ℝ → ℝ} {c b W : ℝ} {s : Set ℝ} {δ K : ℝ} (hδ : 0 < δ) (hK : 0 ≤ K)
    (h : ∀ u ∈ s, |u - b| < δ → |g u - c| ≤ K * |u - b|) (hW : ∀ u ∈ s, |g u - c| ≤ W) :
    ∃ L, 0 ≤ L ∧ ∀ u ∈ s, |g u - c| ≤ L * |u - b| := by
  refine ⟨max K (W / δ), le_max_of_le_left hK, fun u hu => ?_⟩
  rcases lt_or_ge |u - b| δ with i | i
  · exact (h u hu i).trans (mul_le_mul_of_nonneg_right (le_max_left _ _) (abs_nonneg _))
  · refine le_trans ?_ (mul_le_mul_of_nonneg_right (le_max_right _ _) (abs_nonneg _))
    have := hW u hu
    have w0 : 0 ≤ W := (abs_nonneg _).trans this
    rw [div_mul_eq_mul_div, le_div_iff₀ hδ]
    exact mul_le_mul this i hδ.le w0

theorem slope_near {f : ℝ → ℝ} {b : ℝ} (h : DifferentiableAt ℝ f b) :
    ∃ δ K, 0 < δ ∧ 0 ≤ K ∧ ∀ u, |u - b| < δ → |f u - f b| ≤ K * |u - b| := by
  obtain ⟨K, hK, h⟩ := h.isBigO_sub.exists_nonneg
  obtain ⟨δ, hδ, h⟩ := Metric.eventually_nhds_iff.1 h.bound
  exact ⟨δ, K, hδ, hK, fun u hu => h (by rwa [Real.dist_eq])⟩

theorem speeds_smooth {v m b : ℝ} (hv : v ≠ 0) (hb : b < 11000) :
    DifferentiableAt ℝ (fun u => cas2tas np v u 0) b ∧
    DifferentiableAt ℝ (fun u => mach2tas np m u 0) b := by
  have a := fun w : ℝ => C118_airspeed (E := ℝ) (x := b) (v := 1) (u := fun _ => w) (h := id)
    (d := fun _ => 0) (Jvp.constT w) (Jvp.linT (ContinuousLinearMap.id ℝ ℝ)) (Jvp.constT 0)
    (Or.inl hb.ne) (Or.inl (by norm_num)) (Or.inl (by norm_num))
  exact ⟨((a v).2.2.2.2 hv).1.1, (a m).2.1.1⟩

/-- A bound of the slopes where the deceleration begins. -/
theorem slopes {P : DescentParams} (hP : P.Valid) (hv : 0 < P.vcas) (ha : 0 < P.vApp) (hm : 0 ≤ P.mach)
    (hx : P.hCas < 11000) : ∃ L, 0 ≤ L ∧
      (∀ u, P.enter < u → u ≤ P.hCr → |P.speed u - P.vEnter| ≤ L * (u - P.enter)) ∧
      (∀ u, 0 ≤ u → u ≤ P.enter → P.floor P.enter - P.floor u ≤ L * (P.enter - u)) := by
  have hb : P.enter < 11000 := ((min_le_left _ _).trans (min_le_right _ _)).trans_lt hx
  have fm : Monotone P.floor := cas2tas_mono ha.le
  have cm : Monotone P.cap := cas2tas_mono hv.le
  have ml : ∀ {u}, 0 ≤ u → mach2tas np P.mach u 0 ≤ 340.3 * P.mach := by
    intro u hu
    simp only [mach2tas]
    rw [mul_comm]
    exact mul_le_mul_of_nonneg_right (vsound_sea hu) hm
  have en0 : 0 ≤ P.enter := le_min (le_min hP.hMach hP.hCas) hP.hCr
  obtain ⟨L2, l0, l2⟩ : ∃ L, 0 ≤ L ∧ ∀ u ∈ Set.Icc 0 P.enter,
      |P.floor u - P.floor P.enter| ≤ L * |u - P.enter| := by
    obtain ⟨δ, K, hδ, hK, h⟩ := slope_near (speeds_smooth (m := 0) ha.ne' hb).1
    refine slope_extend hδ hK (fun u _ => h u) (W := P.floor P.enter) fun u hu => ?_
    have := fm hu.2
    have : 0 ≤ P.floor u := cas2tas_nonneg _ _
    rw [abs_le]
    constructor <;> linarith
  obtain ⟨L1, k0, l1⟩ : ∃ L, 0 ≤ L ∧ ∀ u ∈ Set.Ioc P.enter P.hCr,
      |P.speed u - P.vEnter| ≤ L * |u - P.enter| := by
    rcases le_or_gt P.hCr (min P.hMach P.hCas) with c | c
    · refine ⟨0, le_rfl, fun u hu => ?_⟩
      have : P.enter = P.hCr := min_eq_right c
      linarith [hu.1, hu.2]
    · have e : P.enter = min P.hMach P.hCas := min_eq_left c.le
      have bound : ∀ u ∈ Set.Ioc P.enter P.hCr, |P.speed u - P.vEnter| ≤
          P.cap P.hMach + 340.3 * P.mach := by
        intro u hu
        have u0 := en0.trans hu.1.le
        have b1 : 0 ≤ P.speed u ∧ P.speed u ≤ P.cap P.hMach + 340.3 * P.mach := by
          have z1 : 0 ≤ P.cap P.hMach := cas2tas_nonneg _ _
          have z2 : 0 ≤ 340.3 * P.mach := by positivity
          have hen : P.hMach < u ∨ P.hCas < u := min_lt_iff.1 (e ▸ hu.1)
          unfold DescentParams.speed descentSpeed
          split_ifs with c1 c2
          · exact ⟨mach2tas_nonneg hm u, by linarith [ml u0]⟩
          · exact ⟨cas2tas_nonneg _ _, by linarith [cm (not_lt.1 c1)]⟩
          all_goals exact absurd hen (by tauto)
        have b2 : 0 ≤ P.vEnter ∧ P.vEnter ≤ P.cap P.hMach + 340.3 * P.mach := by
          have z1 : 0 ≤ P.cap P.hMach := cas2tas_nonneg _ _
          have z2 : 0 ≤ 340.3 * P.mach := by positivity
          unfold DescentParams.vEnter
          split_ifs with c1 c2
          · exact ⟨mach2tas_nonneg hm _, by linarith [ml hP.hCr]⟩
          · exact ⟨mach2tas_nonneg hm _, by linarith [ml hP.hMach]⟩
          · exact ⟨cas2tas_nonneg _ _, by linarith [cm (not_le.1 c2).le]⟩
        rw [abs_le]
        constructor <;> linarith
      obtain ⟨s1, s2⟩ := speeds_smooth (m := P.mach) hv.ne' hb
      rcases le_or_gt P.hMach P.hCas with c2 | c2
      · have e2 : P.enter = P.hMach := by rw [e, min_eq_left c2]
        have e3 : P.vEnter = mach2tas np P.mach P.enter 0 := by
          unfold DescentParams.vEnter
          rw [if_neg (not_le.2 c), if_pos c2, e2]
        obtain ⟨δ, K, hδ, hK, h⟩ := slope_near s2
        refine slope_extend hδ hK (fun u hu i => ?_) bound
        have : P.speed u = mach2tas np P.mach u 0 := by
          have : P.hMach < u := e2 ▸ hu.1
          simp [DescentParams.speed, descentSpeed, this]
        rw [this, e3]
        exact h u i
      · have e2 : P.enter = P.hCas := by rw [e, min_eq_right c2.le]
        have e3 : P.vEnter = P.cap P.enter := by
          unfold DescentParams.vEnter
          rw [if_neg (not_le.2 c), if_neg (not_le.2 c2), e2]
        obtain ⟨δ, K, hδ, hK, h⟩ := slope_near s1
        refine slope_extend (δ := min δ (P.hMach - P.hCas)) (lt_min hδ (by linarith)) hK
          (fun u hu i => ?_) bound
        have i1 := i.trans_le (min_le_left _ _)
        have i2 := i.trans_le (min_le_right _ _)
        rw [abs_of_pos (by linarith [hu.1]), e2] at i2
        have j1 : ¬ P.hMach < u := by linarith
        have j2 : P.hCas < u := e2 ▸ hu.1
        have : P.speed u = P.cap u := by
          simp [DescentParams.speed, descentSpeed, j1, j2]
        rw [this, e3]
        exact h u i1
  refine ⟨max L1 L2, le_max_of_le_left k0, fun u u1 u2 => ?_, fun u u1 u2 => ?_⟩
  · have := l1 u ⟨u1, u2⟩
    have p : 0 < u - P.enter := by linarith
    rw [abs_of_pos p] at this
    exact this.trans (mul_le_mul_of_nonneg_right (le_max_left _ _) p.le)
  · have := l2 u ⟨u1, u2⟩
    have p : u - P.enter ≤ 0 := by linarith
    rw [abs_of_nonpos p, neg_sub] at this
    have := (neg_le_of_abs_le this)
    have : L2 * (P.enter - u) ≤ max L1 L2 * (P.enter - u) :=
      mul_le_mul_of_nonneg_right (le_max_right _ _) (by linarith)
    linarith

/-- **C149, shipped tables, descent.** Likewise for descents with sensible arguments and a CAS of at
least 30 kt; the distance increases strictly as altitude decreases, the speeds at Mach and CAS are exact,
and the first landing row has the distance of altitude 0. -/
theorem C149_descent_shipped (ac : Str) (hac : ac ∈ availableAircraft shipped true) (seed : G)
    (hR : R.Unit) :
    ∃ f, Gen.init shipped ac seed true = .ok f ∧ ∀ kw : Kw, kw.Sensible →
      (∀ c, kw.casDe = some c → 30 ≤ c) →
      ∃ (V S : ℝ → ℝ) (K : ℝ), StrictAntiOn S (Set.Ici 0) ∧ ∀ d, 0 < d → d ≤ 60 →
        ∃ fr f', DescentReturns R f { kw with dt := some d } fr f' ∧
          ∀ pre x post, fr.rows = pre ++ x :: post → (∀ y ∈ pre, y.seg ≠ some .LD) →
            (2 ≤ descentRank x.seg → descentRank x.seg ≤ 3 → x.v = V x.h) ∧
            (2 ≤ descentRank x.seg → descentRank x.seg ≤ 5 →
              |x.v - V x.h| ≤ K * d ∧ |x.s - S x.h| ≤ K * d) ∧
            (x.seg = some .LD → |x.s - S 0| ≤ K * d) := by
  obtain ⟨f, h1, h2, hk, h3⟩ := init_spans hac seed
  refine ⟨f, h1, ?_⟩
  intro kw hsn hc30
  obtain ⟨P, g, hs, hP, hm, ha⟩ := descentSetup_ok (R := R) (f := f) (kw := kw) h2 hR hsn
  obtain ⟨hv, hx⟩ := descent_vcas h2 hR (init_cross hac h1) hc30 hs
  have hr := descent_rate hP
  obtain ⟨L, l0, l1, l2⟩ := slopes hP (by linarith) (by linarith) (by linarith) hx
  obtain ⟨W, w1, w2, w3, w4⟩ : ∃ W, P.cap P.hMach ≤ W ∧ 340.3 * P.mach ≤ W ∧ P.floor P.enter ≤ W ∧
      P.vApp ≤ W :=
    ⟨max (max (P.cap P.hMach) (340.3 * P.mach)) (max (P.floor P.enter) P.vApp), by simp, by simp, by simp,
      by simp⟩
  have w0 : 0 ≤ W := by linarith
  have ge : ∀ {v}, 15 ≤ v → 12 ≤ cas2tas np v 0 0 := by
    intro v hv
    have := cas2tas_ge (v := v) (by linarith) (le_refl (0:ℝ))
    linarith
  have hC0 : 12 ≤ P.cap 0 := ge hv
  have hA0 : 12 ≤ P.floor 0 := ge (by linarith)
  have sp : ∀ d, 0 < d → d ≤ 60 → DescentSpeeds { P with dt := d } W L := fun d hd hd60 =>
    ⟨⟨hd, hP.aLnd, hP.vsMach, hP.vsCas, hP.vsPost, hP.vsFa, hP.hCas, hP.hMach, hP.hCr⟩,
      by simp only; linarith, by simp only; linarith, by simp only; linarith, w1, w2, w3, w4, l0, l1, l2,
      by simp only; linarith, by show 0.2 * d ≤ P.cap 0; linarith, by show 0.2 * d ≤ P.floor 0; linarith⟩
  have hsp := sp 1 one_pos (by norm_num)
  have hV : Speed P.speed W := hsp.speed
  have hq := hr.ratio
  have m0 := hr.pos.trans_le hr.le
  obtain ⟨B, hB⟩ : ∃ B, B = passage P.rate 0 P.hCr := ⟨_, rfl⟩
  have B0 : 0 ≤ B := hB ▸ hr.nonneg hP.hCr
  have hE : 0 ≤ P.slack L := slack_nonneg (P := { P with dt := 1 }) hsp
  have wt : 0 ≤ P.wait ∧ P.wait ≤ 60 := by
    unfold DescentParams.wait
    split_ifs <;> norm_num
  refine ⟨P.speed, P.distance, W * (8 + 4 * (P.vsMax / P.vsMin)) +
    P.slack L * (1 + 60 + B + (1 + 4 * (P.vsMax / P.vsMin)) * 60), ?_, ?_⟩
  · intro a ha' b hb hab
    have vl : ∀ u, 0 ≤ u → 12 ≤ P.speed u := by
      intro u hu
      unfold DescentParams.speed descentSpeed
      split_ifs
      · unfold mach2tas
        have := vsound_lower u
        nlinarith
      · exact hC0.trans (cas2tas_mono (by linarith) hu)
      · have e : P.slow u = P.slow (min u P.enter) := slowDown_cut u
        rw [e]
        refine hA0.trans (le_trans ?_ (floor_le_slowDown (v0 := P.vEnter) (by norm_num) hsp.passAnti
          hsp.floorMono (min_le_right _ _)))
        exact hsp.floorMono (le_min hu hsp.enter0)
      · linarith
    have := (hV.between hr ha' hab.le (lo := 12) (hi := W) (fun u hu => vl u (ha'.trans hu.1))
      fun u hu => hV.high u (ha'.trans hu.1)).1
    have p := hr.strict hab
    have ad := hV.add hr ha' hb hP.hCr
    simp only [DescentParams.distance]
    linarith
  intro d hd hd60
  have hs' := descentSetup_step (d := d) hs
  have hsd := sp d hd hd60
  have hP' := hsd.valid
  obtain ⟨fr, f', hret⟩ := descentReturns_of hs' hP'
  have e := ((C52_descent f _ _ g hs' hP').2 h3 fr f' hret).1
  refine ⟨fr, f', hret, ?_⟩
  intro pre x post hrows hpre
  have t1 : 2 ≤ descentRank x.seg → descentRank x.seg ≤ 6 →
      x.t ≤ 60 + B + (1 + 4 * (P.vsMax / P.vsMin)) * 60 := by
    intro hk hk6
    obtain ⟨P', g', ss, -, s2, s3, -⟩ := descentReturns_iff.1 hret
    rw [s3] at e hrows
    simp only at e hrows
    subst e
    obtain ⟨y, key, x1, x2, x3, x4, x5⟩ := descent_row h3 s2 hsd hrows hpre
    rw [x4] at hk hk6
    rw [x1]
    have n3 : ∀ {a}, a ≤ 4 → (1 + P.vsMax / P.vsMin * a) * d ≤ (1 + 4 * (P.vsMax / P.vsMin)) * 60 := by
      intro a h4
      have : P.vsMax / P.vsMin * a ≤ P.vsMax / P.vsMin * 4 := mul_le_mul_of_nonneg_left h4 (by linarith)
      have : (1 + P.vsMax / P.vsMin * a) * d ≤ (1 + 4 * (P.vsMax / P.vsMin)) * d :=
        mul_le_mul_of_nonneg_right (by linarith) hd.le
      exact this.trans (mul_le_mul_of_nonneg_left hd60 (by positivity))
    rcases key.time with ⟨k, -⟩ | ⟨k, k', kh, -, n0, n⟩ | ⟨k, -, n⟩
    · omega
    · have n : |y.t - P.wait - passage P.rate y.h P.hCr| ≤ (1 + P.vsMax / P.vsMin * P.count y.h) * d := n
      have n0 : P.wait ≤ y.t := n0
      have n1 := (abs_le.1 n).2
      have n2 : passage P.rate y.h P.hCr ≤ B := by
        have := hr.add 0 y.h P.hCr
        have : 0 ≤ passage P.rate 0 y.h := hr.nonneg kh.le
        linarith
      have := n3 ((descent_count_le P y.h).trans (by norm_num : (3:ℝ) ≤ 4))
      linarith
    · have n : |y.t - P.wait - passage P.rate 0 P.hCr| ≤ (1 + 4 * (P.vsMax / P.vsMin)) * d := n
      have n1 := (abs_le.1 n).2
      have := n3 le_rfl
      linarith
  obtain ⟨-, k2, k3, k4⟩ := C149_descent f f' _ h3 fr hret (e ▸ hP') (by rw [e]; simp only; linarith)
    (by rw [e]; simp only; linarith) (by rw [e]; simp only; linarith) _ e _ _ rfl rfl _ rfl P.cap
    (fun u => ⟨cas2tas_nonneg _ _, by simp only; linarith, (cas2tas_spec P.vcas u 0).2.symm⟩) P.floor
    (fun u => ⟨cas2tas_nonneg _ _, by simp only; linarith, (cas2tas_spec P.vApp u 0).2.symm⟩)
    (fun u => mach2tas np P.mach u 0) (fun u => by rw [mach2tas, vsound_eq]) _ _ rfl rfl _ rfl _ rfl W w1 w2
    w3 w4 L l0 l1 l2 hsd.slowM hsd.slowC hsd.slowA pre x post hrows hpre
  have mul : ∀ {z a : ℝ}, 2 ≤ descentRank x.seg → descentRank x.seg ≤ 6 → a ≤ 4 →
      z ≤ (W * (8 + a * (P.vsMax / P.vsMin)) + P.slack L * x.t) * d →
      z ≤ (W * (8 + 4 * (P.vsMax / P.vsMin)) +
        P.slack L * (1 + 60 + B + (1 + 4 * (P.vsMax / P.vsMin)) * 60)) * d := by
    intro z a hk hk6 ha4 h
    refine h.trans (mul_le_mul_of_nonneg_right ?_ hd.le)
    have i2 : W * (8 + a * (P.vsMax / P.vsMin)) ≤ W * (8 + 4 * (P.vsMax / P.vsMin)) :=
      mul_le_mul_of_nonneg_left (by nlinarith) w0
    have i3 := mul_le_mul_of_nonneg_left (t1 hk hk6) hE
    linarith
  refine ⟨k2, fun hk hk5 => ⟨?_, ?_⟩, fun hc => ?_⟩
  · refine (k3 hk hk5).1.trans (mul_le_mul_of_nonneg_right ?_ hd.le)
    have i1 : 0 ≤ W * (8 + 4 * (P.vsMax / P.vsMin)) := by positivity
    have i2 : 0 ≤ P.slack L * (60 + B + (1 + 4 * (P.vsMax / P.vsMin)) * 60) := by positivity
    show P.slack L ≤ _
    linarith
  · exact mul hk (by omega) (by norm_num) (k3 hk hk5).2
  · exact mul (by rw [hc]; simp [descentRank]) (by rw [hc]; simp [descentRank]) le_rfl (k4 hc)

/-- The deceleration begins at the start and is then held up: from 100 m/s at 30 m with one second per
metre and a floor of `60 + u` m/s. -/
example : slowDown 100 0.2 30 (fun u => 30 - u) (fun u => 60 + u) 10 = 96 := by
  refine le_antisymm (slowDown_le (by norm_num) (by norm_num) fun w h0 h1 => ?_) ?_
  · linarith
  · have := start_le_slowDown (v0 := 100) (a := 0.2) (T := fun u => 30 - u) (A := fun u => 60 + u)
      (show (10:ℝ) ≤ 30 by norm_num)
    norm_num at this ⊢
    exact this

/-- Values meeting the hypotheses of `C149_descent` exist for any parameters of `C149_descent_shipped`. -/
example {P : DescentParams} (hP : P.Valid) (hv : 15 ≤ P.vcas) (ha : 15 ≤ P.vApp) (hm : 0.05 ≤ P.mach)
    (hx : P.hCas < 11000) (hd : P.dt ≤ 60) : ∃ W L, DescentSpeeds P W L := by
  obtain ⟨L, l0, l1, l2⟩ := slopes hP (by linarith) (by linarith) (by linarith) hx
  have ge : ∀ {v}, 15 ≤ v → 12 ≤ cas2tas np v 0 0 := by
    intro v hv
    have := cas2tas_ge (v := v) (by linarith) (le_refl (0:ℝ))
    linarith
  have hC0 : 12 ≤ P.cap 0 := ge hv
  have hA0 : 12 ≤ P.floor 0 := ge ha
  exact ⟨max (max (P.cap P.hMach) (340.3 * P.mach)) (max (P.floor P.enter) P.vApp), L, hP, by linarith,
    by linarith, by linarith, by simp, by simp, by simp, by simp, l0, l1, l2, by linarith, by linarith,
    by linarith⟩

end Verif.Props
