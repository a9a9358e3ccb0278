import Verif.Spec.Airspeed
import Verif.Lemmas.GenDistance
import Verif.Lemmas.GenLevel
import Verif.Props.GenTime

/-!
# C149: the distance of a generated climb or descent does not depend on the time step
-/

namespace Verif.Props
open Verif Verif.Aero Verif.Gen Verif.Spec Verif.Tables Verif.Kinematic Verif.Registry
open Verif.Data (shipped)

variable {G : Type} {R : Rng G}

/-- The speed with a given calibrated airspeed. -/
theorem cap_unique {C : ℝ → ℝ} {v : ℝ}
    (hC : ∀ u, 0 ≤ C u ∧ IsCas (pressure np u 0) (density np u 0) (C u) v) (u : ℝ) :
    C u = cas2tas np v u 0 := by
  obtain ⟨h1, -, h2⟩ := hC u
  obtain ⟨n, e⟩ := cas2tas_spec v u 0
  exact impact_inj (pressure_pos u 0) (density_pos u 0) h1 n (h2.symm.trans e.symm)

theorem mach_unique {M : ℝ → ℝ} {m : ℝ} (hM : ∀ u, M u = m * Real.sqrt (401.874018 * isaTemp u 0)) :
    M = fun u => mach2tas np m u 0 := by
  funext u
  rw [hM, mach2tas, vsound_eq]

/-- The rows up to the first level one. -/
theorem climb_row {f : FlightGen G} {g : G} (hn : f.noise = false) {P : ClimbParams} {W : ℝ}
    {ss : List ClimbState} (h2 : Trace (climbBody P) climbInit ss) (hs : ClimbSpeeds P W)
    {pre : List OutRow} {x : OutRow} {post : List OutRow}
    (e : List.map derive (addNoise R { f with rng := g } (ss.map ClimbState.toRow)).1 = pre ++ x :: post)
    (hpre : ∀ y ∈ pre, y.seg ≠ some .CR) :
    ∃ y, ClimbFar P W y ∧ x.t = y.t ∧ x.h = y.h ∧ x.v = y.v ∧ x.seg = y.seg ∧ x.s = y.s := by
  have hP := hs.valid
  rw [addNoise_off hn] at e
  simp only [List.map_map] at e
  obtain ⟨l1, l2, rfl, e1, e2⟩ := List.map_eq_append_iff.1 e
  obtain ⟨y, l3, rfl, e3, e4⟩ := List.map_eq_cons_iff.1 e2
  have hl : ∀ z ∈ l1, z.seg ≠ some .CR := by
    intro z hz
    exact hpre (derive z.toRow) (by rw [← e1]; exact List.mem_map.2 ⟨z, hz, rfl⟩)
  have init : ClimbFar P W climbInit := by
    refine ⟨.inl ⟨by decide, rfl, rfl, by simp [climbInit], le_rfl, ?_⟩, ?_, by simp [climbInit, climbRank],
      by simp [climbInit, climbRank], by simp [climbInit, climbRank]⟩
    · have := div_nonneg hs.v0 hP.aTof.le
      have := hP.dt
      simp only [climbInit]
      linarith
    · simp [climbInit]
  refine ⟨y, climb_far hs h2 init l1 y l3 rfl hl, ?_⟩
  rw [← e3]
  exact ⟨rfl, rfl, rfl, rfl, rfl⟩

/-- **C149, climb.** Let `C u` be the speed that has the climb CAS at altitude `u`, `M u` the one that
has the climb Mach number, and let the aircraft fly continuously: it takes off with `v²/(2a)`, then
gains up to 0.5 m/s per second without exceeding the CAS, and holds CAS and Mach above their
altitudes. Up to its first level row a generated climb has this speed and this distance at each
altitude up to a bound proportional to the time step. -/
theorem C149_climb (f f' : FlightGen G) (kw : Kw) (hn : f.noise = false) (fr : ClimbFrame)
    (h : ClimbReturns R f kw fr f') (hP : fr.params.Valid) (h0 : 0 ≤ fr.params.vTof)
    (hcas : (1 + 1e-8) * fr.params.vTof ≤ fr.params.vcas)
    (hmach : fr.params.vTof ≤ 295 * fr.params.mach) (P : ClimbParams) (hp : fr.params = P)
    (q : ℝ) (hq : q = max (max P.vsIc P.vsPre) (max P.vsCas P.vsMach) /
      min (min P.vsIc P.vsPre) (min P.vsCas P.vsMach))
    (r : ℝ → ℝ) (hr : r = climbRate P.vsIc P.vsPre P.vsCas P.vsMach P.hCas P.hMach)
    (C : ℝ → ℝ) (hC : ∀ u, 0 ≤ C u ∧ IsCas (pressure np u 0) (density np u 0) (C u) P.vcas)
    (M : ℝ → ℝ) (hM : ∀ u, M u = P.mach * Real.sqrt (401.874018 * isaTemp u 0))
    (V : ℝ → ℝ) (hV : V = climbSpeed (speedUp P.vTof 0.5 (passage r 0) C) C M P.hCas P.hMach)
    (S : ℝ → ℝ) (hS : S = fun u => P.vTof ^ 2 / (2 * P.aTof) + flown V r 0 u)
    (W : ℝ) (hW : C (max (1500 * 0.3048) (max P.hCas P.hMach)) ≤ W) (hW' : 340.3 * P.mach ≤ W)
    (top : ℝ) (ht : top = max (max P.hCr P.hMach) (max P.hCas (1500 * 0.3048))) :
    ∀ pre x post, fr.rows = pre ++ x :: post → (∀ y ∈ pre, y.seg ≠ some .CR) →
      (climbRank x.seg ≤ 1 → x.s = x.v ^ 2 / (2 * P.aTof) - x.v * P.dt / 2) ∧
      (2 ≤ climbRank x.seg →
        |x.v - V x.h| ≤ (P.aTof + 0.5 + 1.5 * q) * P.dt ∧
        |x.s - S x.h| ≤ (1.5 * P.vTof + P.aTof * P.dt + W * (7 + 3 * q) +
          (P.aTof + 0.5 + 1.5 * q) * x.t) * P.dt) ∧
      (x.seg = some .CR →
        |x.s - S top| ≤ (1.5 * P.vTof + P.aTof * P.dt + W * (7 + 4 * q) +
          (P.aTof + 0.5 + 1.5 * q) * x.t) * P.dt) := by
  subst hp
  obtain ⟨P, g, ss, h1, h2, rfl, -⟩ := climbReturns_iff.1 h
  intro pre x post e hpre
  simp only at *
  have hCe : C = P.cap := funext fun u => cap_unique hC u
  have hre : r = P.rate := hr
  have hVe : V = P.speed := by rw [hV, hre, hCe, mach_unique hM]; rfl
  have hSe : S = P.distance := by rw [hS, hVe, hre]; rfl
  rw [hCe] at hW
  have hs : ClimbSpeeds P W := ⟨hP, h0, hcas, hmach, hW, hW'⟩
  obtain ⟨y, key, x1, x2, x3, x4, x5⟩ := climb_row hn h2 hs e hpre
  rw [x1, x2, x3, x4, x5, hVe, hSe]
  have hqe : P.vsMax / P.vsMin = q := hq.symm
  have hte : P.level = top := ht.symm
  have hrr := climb_rate hP
  have hdt := hP.dt
  have hy0 : 2 ≤ climbRank y.seg → 0 ≤ y.h := by
    intro hk
    rcases key.time with ⟨k, -⟩ | ⟨-, -, k, -⟩ | ⟨-, k, -⟩
    · omega
    · exact k
    · exact (level_pos P).le.trans k
  have far : 2 ≤ climbRank y.seg → |y.s - P.distance y.h| ≤ (1.5 * P.vTof + P.aTof * P.dt +
      W * (7 + 3 * q) + (P.aTof + 0.5 + 1.5 * q) * y.t) * P.dt := by
    intro hk
    have := (key.far hk).2
    have sp := (hs.spent_le (hy0 hk)).2
    rw [hqe] at this sp
    refine this.trans (mul_le_mul_of_nonneg_right ?_ hdt.le)
    linarith
  refine ⟨key.roll, fun hk => ⟨?_, far hk⟩, ?_⟩
  · have := key.close hs hk (hy0 hk)
    rwa [hqe] at this
  · intro hc
    have hk : 2 ≤ climbRank y.seg := by rw [hc]; simp [climbRank]
    have a := far hk
    obtain ⟨t1, t2, -⟩ := climbTime_top hP key.time hc
    have l0 := (level_pos P).le
    have ad := hs.speed.add hrr le_rfl l0 (hy0 hk)
    obtain ⟨b1, b2⟩ := hs.speed.between hrr l0 t1 (lo := 0) (hi := W)
      (fun u hu => hs.speed.low u (l0.trans hu.1)) fun u hu => hs.speed.high u (l0.trans hu.1)
    have w0 : 0 ≤ W := (hs.speed.low _ l0).trans (hs.speed.high _ l0)
    have c : passage P.rate P.level y.h ≤ q * P.dt := by
      rw [← hqe]
      refine (hrr.upper t1).trans ?_
      rw [div_mul_eq_mul_div]
      exact div_le_div_of_nonneg_right (by linarith) hrr.pos.le
    have d : W * passage P.rate P.level y.h ≤ W * (q * P.dt) := mul_le_mul_of_nonneg_left c w0
    rw [← hte]
    unfold ClimbParams.distance at a ⊢
    rw [ad] at a
    rw [abs_le] at *
    constructor <;> linarith

/-- **C149, level rows.** From the first level row on a climb flies level at its Mach number: the
distance is exactly speed times time, and the rows end after 60 s, up to one time step. -/
theorem C149_level (f f' : FlightGen G) (kw : Kw) (hn : f.noise = false) (fr : ClimbFrame)
    (h : ClimbReturns R f kw fr f') (P : ClimbParams) (hp : fr.params = P) (hd : 0 < P.dt)
    (hm : P.vTof ≤ 295 * P.mach) (h0 : 0 ≤ P.mach) :
    ∀ pre y x post, fr.rows = pre ++ y :: x :: post → y.seg ≠ some .CR → x.seg = some .CR →
      (∀ z ∈ x :: post, z.seg = some .CR ∧ z.h = x.h ∧
        z.v = P.mach * Real.sqrt (401.874018 * isaTemp x.h 0) ∧ z.s = x.s + x.v * (z.t - x.t) ∧
        z.t - x.t ≤ 60) ∧
      ∃ z, fr.rows.getLast? = some z ∧ 60 - P.dt < z.t - x.t := by
  subst hp
  obtain ⟨P, g, ss, h1, h2, rfl, -⟩ := climbReturns_iff.1 h
  intro pre y x post e hy hx
  simp only at *
  rw [addNoise_off hn, List.map_map] at e ⊢
  obtain ⟨l1, l2, rfl, e1, e2⟩ := List.map_eq_append_iff.1 e
  obtain ⟨y', l3, rfl, e3, e4⟩ := List.map_eq_cons_iff.1 e2
  obtain ⟨x', l4, rfl, e5, e6⟩ := List.map_eq_cons_iff.1 e4
  have hy' : y'.seg ≠ some .CR := by rw [← e3] at hy; exact hy
  have hx' : x'.seg = some .CR := by rw [← e5] at hx; exact hx
  have ex : x.t = x'.t ∧ x.v = x'.v ∧ x.s = x'.s ∧ x.h = x'.h := by
    rw [← e5]; exact ⟨rfl, rfl, rfl, rfl⟩
  rw [ex.1, ex.2.1, ex.2.2.1, ex.2.2.2]
  have inv := trace_inv (Inv := Levelling P) (fun _ hx _ => levelling_step hd hm h0 hx) h2
    ⟨le_rfl, fun _ => rfl, fun i => by simp [climbInit] at i⟩
  have iy := inv y' (by simp)
  have ix := inv x' (by simp)
  have tr := trace_from h2 l1 y' (x' :: l4) rfl
  rcases tr with _ | ⟨hb, ht⟩
  have xe : (climbBody P y').1 = x' := by
    cases ht <;> rfl
  have tc : x'.tcr = x'.t := by
    have z := iy.before hy'
    rw [← xe] at hx' ⊢
    revert hx'
    unfold climbBody
    dsimp only
    split_ifs <;> simp
  rw [xe] at ht
  obtain ⟨k1, z, k2, k3⟩ := level_rows hd hm h0 ht ix hx' (by rw [tc]; norm_num)
  rw [tc] at k1 k3
  refine ⟨?_, derive z.toRow, ?_, k3⟩
  · intro w hw
    rw [← e5, ← e6, ← List.map_cons] at hw
    obtain ⟨w', m1, rfl⟩ := List.mem_map.1 hw
    obtain ⟨j1, j2, j3, j4, j5⟩ := k1 w' m1
    refine ⟨j1, j2, ?_, j4, j5⟩
    have := (ix.level hx').2.1
    rw [mach2tas, vsound_eq] at this
    exact j3.trans this
  · rw [List.getLast?_map, List.getLast?_append, List.getLast?_cons_cons, k2]
    rfl

/-! ## Shipped tables -/

/-- **C149, shipped tables, climb.** For every offered type code and all arguments with a Mach number
of at least 0.35 and a CAS of at least 190 kt, random or not, there are a speed profile and a strictly
increasing distance profile over altitude and a constant, none of which depends on the time step:
with a step of `d ≤ 60` seconds every row off the ground up to the first level one has that speed and
that distance up to `K d`, and the first level row the distance of the level-off altitude. -/
theorem C149_climb_shipped (ac : Str) (hac : ac ∈ availableAircraft shipped true) (seed : G)
    (hR : R.Unit) :
    ∃ f, Gen.init shipped ac seed true = .ok f ∧ ∀ kw : Kw,
      (∀ m, kw.machCl = some m → 0.35 ≤ m) → (∀ c, kw.casCl = some c → 190 ≤ c) →
      ∃ (V S : ℝ → ℝ) (top K : ℝ), StrictMonoOn S (Set.Ici 0) ∧ ∀ d, 0 < d → d ≤ 60 →
        ∃ fr f', ClimbReturns R f { kw with dt := some d } fr f' ∧
          ∀ pre x post, fr.rows = pre ++ x :: post → (∀ y ∈ pre, y.seg ≠ some .CR) →
            (2 ≤ climbRank x.seg → |x.v - V x.h| ≤ K * d ∧ |x.s - S x.h| ≤ K * d) ∧
            (x.seg = some .CR → |x.s - S top| ≤ K * d) := by
  obtain ⟨f, h1, h2, hk, h3⟩ := init_spans hac seed
  refine ⟨f, h1, ?_⟩
  intro kw hm hc
  obtain ⟨P, g, hs, hP, -, -, a1, a2, a3, a4, a5, a6, -⟩ :=
    climbSetup_ok (R := R) (f := f) (kw := { kw with dt := some 1 }) h2 hR (by simp)
      (fun m h => by linarith [hm m h])
  have hr := climb_rate hP
  have v1 : 97.7 ≤ P.vcas := by
    rcases h : kw.casCl with _ | c
    · linarith [a3 h]
    · linarith [a4 c h, hc c h]
  have v2 : P.vTof ≤ 295 * P.mach := by
    rcases h : kw.machCl with _ | m
    · linarith [a5 h]
    · linarith [a6 m h, hm m h]
  obtain ⟨W, w1, w2⟩ : ∃ W, P.cap (max (1500 * 0.3048) (max P.hCas P.hMach)) ≤ W ∧ 340.3 * P.mach ≤ W :=
    ⟨_, le_max_left _ _, le_max_right _ _⟩
  have hsp : ClimbSpeeds P W := ⟨hP, by linarith, by linarith, v2, w1, w2⟩
  have hq := hr.ratio
  have w0 : 0 ≤ W := (ClimbSpeeds.cap0 _).trans w1
  obtain ⟨B, hB⟩ : ∃ B, B = passage P.rate 0 (P.level + P.vsMax * 60) := ⟨_, rfl⟩
  have hE : 0 ≤ P.aTof + 0.5 + 1.5 * (P.vsMax / P.vsMin) := by
    have := hP.aTof
    positivity
  refine ⟨P.speed, P.distance, P.level, 1.5 * P.vTof + P.aTof * 60 + W * (7 + 4 * (P.vsMax / P.vsMin)) +
    (P.aTof + 0.5 + 1.5 * (P.vsMax / P.vsMin)) *
      (1 + P.vTof / P.aTof + B + (2 + 3 * (P.vsMax / P.vsMin)) * 60), ?_, ?_⟩
  · intro a ha b hb hab
    have vl : ∀ u, 0 ≤ u → 80 ≤ P.speed u := by
      intro u hu
      have c1 : ∀ u, 0 ≤ u → 80 ≤ P.cap u := by
        intro u hu
        have := cas2tas_ge (v := P.vcas) (by linarith) hu
        have : P.vcas ≤ (1 + 1e-8) * P.cap u := this
        linarith
      have c2 : 80 ≤ P.acc u := by
        refine le_speedUp hu ?_ fun w w0 w1 => ?_
        · linarith [hsp.pass0 hu]
        · linarith [hsp.passMono w u w1, c1 w w0]
      have c3 : 80 ≤ mach2tas np P.mach u 0 := by
        unfold mach2tas
        have := vsound_lower u
        have := hP.mach
        nlinarith
      unfold ClimbParams.speed climbSpeed
      split_ifs
      · exact c2
      · exact c2
      · exact c1 u hu
      · exact c3
    have := (hsp.speed.between hr ha hab.le (lo := 80) (hi := W) (fun u hu => vl u (ha.trans hu.1))
      fun u hu => hsp.speed.high u (ha.trans hu.1)).1
    have p := hr.strict hab
    have ad := hsp.speed.add hr le_rfl ha hb
    simp only [ClimbParams.distance]
    linarith
  intro d hd hd60
  have hs' := climbSetup_step (d := d) hs
  simp only at hs'
  have hP' : ({ P with dt := d } : ClimbParams).Valid :=
    ⟨hd, hP.aTof, hP.vsIc, hP.vsPre, hP.vsCas, hP.vsMach, hP.mach⟩
  obtain ⟨fr, f', hret⟩ := climbReturns_of hs' hP'
  have e := ((C50_climb f _ _ g hs' hP').2 h3 fr f' hret).1
  refine ⟨fr, f', hret, ?_⟩
  intro pre x post hrows hpre
  have t1 : 2 ≤ climbRank x.seg → x.t ≤ P.vTof / P.aTof + B + (2 + 3 * (P.vsMax / P.vsMin)) * 60 := by
    intro hk
    obtain ⟨P', g', ss, -, s2, s3, -⟩ := climbReturns_iff.1 hret
    rw [s3] at e hrows
    simp only at e hrows
    subst e
    have hsp' : ClimbSpeeds { P with dt := d } W := ⟨hP', hsp.v0, hsp.cas, hsp.mach, w1, w2⟩
    obtain ⟨y, key, x1, x2, x3, x4, x5⟩ := climb_row h3 s2 hsp' hrows hpre
    rw [x4] at hk
    rw [x1]
    have hc3 : P.vsMax / P.vsMin * P.count y.h ≤ P.vsMax / P.vsMin * 3 :=
      mul_le_mul_of_nonneg_left (count_le P y.h) (by linarith)
    have fin : NearClimb { P with dt := d } y.t y.h → y.h ≤ P.level + P.vsMax * 60 →
        y.t ≤ P.vTof / P.aTof + B + (2 + 3 * (P.vsMax / P.vsMin)) * 60 := by
      intro n hh
      have n : |y.t - P.vTof / P.aTof - passage P.rate 0 y.h| ≤ (2 + P.vsMax / P.vsMin * P.count y.h) * d := n
      have n1 := (abs_le.1 n).2
      have n2 : passage P.rate 0 y.h ≤ B := hB ▸ hr.mono hh
      have n3 : (2 + P.vsMax / P.vsMin * P.count y.h) * d ≤ (2 + 3 * (P.vsMax / P.vsMin)) * 60 :=
        mul_le_mul (by linarith) hd60 hd.le (by positivity)
      linarith
    have m0 : 0 < P.vsMax := hr.pos.trans_le hr.le
    rcases key.time with ⟨k, -⟩ | ⟨-, -, -, k1, -, -, k⟩ | ⟨-, -, k1, k⟩
    · omega
    · have k1 : y.h < P.level := k1
      exact fin k (by linarith)
    · have k1 : y.h ≤ P.level + P.vsMax * d := k1
      exact fin k (by nlinarith)
  obtain ⟨-, k2, k3⟩ := C149_climb f f' _ h3 fr hret (e ▸ hP') (by rw [e]; simp only; linarith)
    (by rw [e]; simp only; linarith) (by rw [e]; exact v2) _ e _ rfl _ rfl P.cap
    (fun u => ⟨ClimbSpeeds.cap0 u, by simp only; linarith, (cas2tas_spec P.vcas u 0).2.symm⟩)
    (fun u => mach2tas np P.mach u 0) (fun u => by rw [mach2tas, vsound_eq]) _ rfl _ rfl W w1 w2 _ rfl
    pre x post hrows hpre
  have ha := hP.aTof
  have hv := hsp.v0
  have hB0 : 0 ≤ B := hB ▸ hsp.pass0 (by
    have := level_pos P
    have := hr.pos.trans_le hr.le
    positivity)
  have hz : 0 ≤ P.vTof / P.aTof := by positivity
  have mul : ∀ {z a : ℝ}, 2 ≤ climbRank x.seg → a ≤ 4 →
      z ≤ (1.5 * P.vTof + P.aTof * d + W * (7 + a * (P.vsMax / P.vsMin)) +
        (P.aTof + 0.5 + 1.5 * (P.vsMax / P.vsMin)) * x.t) * d →
      z ≤ (1.5 * P.vTof + P.aTof * 60 + W * (7 + 4 * (P.vsMax / P.vsMin)) +
        (P.aTof + 0.5 + 1.5 * (P.vsMax / P.vsMin)) *
          (1 + P.vTof / P.aTof + B + (2 + 3 * (P.vsMax / P.vsMin)) * 60)) * d := by
    intro z a hk ha4 h
    refine h.trans (mul_le_mul_of_nonneg_right ?_ hd.le)
    have i1 : P.aTof * d ≤ P.aTof * 60 := mul_le_mul_of_nonneg_left hd60 ha.le
    have i2 : W * (7 + a * (P.vsMax / P.vsMin)) ≤ W * (7 + 4 * (P.vsMax / P.vsMin)) :=
      mul_le_mul_of_nonneg_left (by nlinarith) w0
    have i3 := mul_le_mul_of_nonneg_left (t1 hk) hE
    linarith
  refine ⟨fun hk => ⟨?_, ?_⟩, fun hc => ?_⟩
  · refine (k2 hk).1.trans (mul_le_mul_of_nonneg_right ?_ hd.le)
    have i1 : 0 ≤ W * (7 + 4 * (P.vsMax / P.vsMin)) := by positivity
    have i2 : 0 ≤ (P.aTof + 0.5 + 1.5 * (P.vsMax / P.vsMin)) *
        (P.vTof / P.aTof + B + (2 + 3 * (P.vsMax / P.vsMin)) * 60) := by positivity
    have i3 : 0 ≤ P.aTof * 60 := by positivity
    show P.aTof + 0.5 + 1.5 * (P.vsMax / P.vsMin) ≤ _
    linarith
  · exact mul hk (by norm_num) (k2 hk).2
  · exact mul (by rw [hc]; simp [climbRank]) le_rfl (k3 hc)

/-- The profile before constant CAS accelerates and is then held down: with a passage of one second
per metre and a limit of `100 + u` m/s it is `min (80 + u / 2) (100 + u)`. -/
example : speedUp 80 0.5 id (fun u => 100 + u) 30 = 95 := by
  refine le_antisymm ?_ ?_
  · have := speedUp_start (v0 := 80) (a := 0.5) (T := id) (C := fun u => 100 + u) 30
    simp only [id] at this
    linarith
  · refine le_speedUp (by norm_num) (by norm_num) fun w h0 h1 => ?_
    simp only [id]
    linarith

/-- Values meeting the hypotheses of `C149_climb` and `C149_descent` exist: functions `C` and `M` and
a bound `W` for any parameters. -/
example (P : ClimbParams) (hv : 0 ≤ P.vcas) : ∃ (C M : ℝ → ℝ) (W : ℝ),
    (∀ u, 0 ≤ C u ∧ IsCas (pressure np u 0) (density np u 0) (C u) P.vcas) ∧
    (∀ u, M u = P.mach * Real.sqrt (401.874018 * isaTemp u 0)) ∧
    C (max (1500 * 0.3048) (max P.hCas P.hMach)) ≤ W ∧ 340.3 * P.mach ≤ W :=
  ⟨P.cap, fun u => mach2tas np P.mach u 0, _,
    fun u => ⟨ClimbSpeeds.cap0 u, hv, (cas2tas_spec P.vcas u 0).2.symm⟩,
    fun u => by simp only [mach2tas, vsound_eq], le_max_left _ _, le_max_right _ _⟩

end Verif.Props
