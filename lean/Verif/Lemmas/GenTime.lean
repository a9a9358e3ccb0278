import Verif.Spec.GenTime
import Verif.Lemmas.GenComplete
import Verif.Props.GenSegments
import Verif.Lemmas.EnvelopeShipped

/-!
# Euler steps against the continuous passage
-/

namespace Verif.Gen
open Verif Verif.Aero Verif.Spec MeasureTheory Set
open Verif.Props (ClimbSegInv climbSeg_step cas2tas_ge)

/-- A rate between two positive bounds. -/
structure Rate (r : ℝ → ℝ) (m M : ℝ) : Prop where
  meas : Measurable r
  pos : 0 < m
  low : ∀ u, m ≤ r u
  high : ∀ u, r u ≤ M

namespace Rate
variable {r : ℝ → ℝ} {m M : ℝ} (hr : Rate r m M)
include hr

theorem le : m ≤ M := (hr.low 0).trans (hr.high 0)

theorem ratio : 1 ≤ M / m := (one_le_div hr.pos).2 hr.le

theorem integrable (a b : ℝ) : IntervalIntegrable (fun u => 1 / r u) volume a b := by
  rw [intervalIntegrable_iff]
  refine Measure.integrableOn_of_bounded (M := 1 / m) measure_Ioc_lt_top.ne
    (by simp only [one_div]; exact (hr.meas.inv).aestronglyMeasurable) (.of_forall fun u => ?_)
  have h1 := hr.pos
  have h2 := h1.trans_le (hr.low u)
  rw [Real.norm_eq_abs, abs_of_nonneg (by positivity)]
  exact one_div_le_one_div_of_le h1 (hr.low u)

theorem add (a b c : ℝ) : passage r a c = passage r a b + passage r b c :=
  (intervalIntegral.integral_add_adjacent_intervals (hr.integrable a b) (hr.integrable b c)).symm

theorem nonneg {a b : ℝ} (h : a ≤ b) : 0 ≤ passage r a b := by
  refine intervalIntegral.integral_nonneg h fun u _ => ?_
  have := hr.pos.trans_le (hr.low u)
  positivity

theorem upper {a b : ℝ} (h : a ≤ b) : passage r a b ≤ (b - a) / m := by
  have := intervalIntegral.norm_integral_le_of_norm_le_const (a := a) (b := b) (C := 1 / m)
    (f := fun u => 1 / r u) fun u _ => by
      have h1 := hr.pos
      have h2 := h1.trans_le (hr.low u)
      rw [Real.norm_eq_abs, abs_of_nonneg (by positivity)]
      exact one_div_le_one_div_of_le h1 (hr.low u)
  rw [abs_of_nonneg (sub_nonneg.2 h)] at this
  refine (le_abs_self _).trans (this.trans (le_of_eq ?_))
  ring

theorem lower {a b : ℝ} (h : a ≤ b) : (b - a) / M ≤ passage r a b := by
  have hM := hr.pos.trans_le hr.le
  have := intervalIntegral.integral_mono_on (a := a) (b := b) (f := fun _ => 1 / M)
    (g := fun u => 1 / r u) h (by simp) (hr.integrable a b) fun u _ =>
      one_div_le_one_div_of_le (hr.pos.trans_le (hr.low u)) (hr.high u)
  refine le_trans (le_of_eq ?_) this
  simp
  ring

theorem strict {a b : ℝ} (h : a < b) : 0 < passage r a b :=
  (div_pos (sub_pos.2 h) (hr.pos.trans_le hr.le)).trans_le (hr.lower h.le)

omit hr in
theorem const {a b c : ℝ} (h : a ≤ b) (hc : ∀ u ∈ Ioo a b, r u = c) : passage r a b = (b - a) / c := by
  unfold passage
  rw [intervalIntegral.integral_congr_Ioo_of_le (g := fun _ => 1 / c) h fun u hu => by
    simp only [hc u hu]]
  simp
  ring

/-- One step: exact where the rate does not change, otherwise off by at most `M / m` steps. -/
theorem step {a b dt k : ℝ} (hd : 0 ≤ dt) (h : a ≤ b) (hb : b - a ≤ M * dt)
    (hk : (k = 0 ∧ passage r a b = dt) ∨ 1 ≤ k) : |dt - passage r a b| ≤ M / m * dt * k := by
  have h1 := hr.nonneg h
  have h2 := hr.upper h
  have hq := hr.ratio
  rcases hk with ⟨rfl, e⟩ | hk
  · rw [e]; simp
  · have h3 : passage r a b ≤ M / m * dt := by
      refine h2.trans ?_
      rw [div_mul_eq_mul_div]
      exact div_le_div_of_nonneg_right hb hr.pos.le
    have h4 : 1 * dt ≤ M / m * dt := mul_le_mul_of_nonneg_right hq hd
    have h5 : M / m * dt * 1 ≤ M / m * dt * k := mul_le_mul_of_nonneg_left hk (by linarith)
    rw [abs_le]
    constructor <;> linarith

end Rate

/-- Has `b` been passed at `h`? -/
noncomputable def passed (b h : ℝ) : ℝ := if b ≤ h then 1 else 0

theorem passed_mono {b h h' : ℝ} (hh : h ≤ h') : passed b h ≤ passed b h' := by
  unfold passed
  split_ifs <;> first | (norm_num; done) | linarith

theorem passed_le (b h : ℝ) : passed b h ≤ 1 := by unfold passed; split_ifs <;> norm_num
theorem passed_nonneg (b h : ℝ) : 0 ≤ passed b h := by unfold passed; split_ifs <;> norm_num

theorem passed_eq {b h h' : ℝ} (hh : h ≤ h') :
    (passed b h' - passed b h = 0 ∧ (b ≤ h ∨ h' < b)) ∨ passed b h' - passed b h = 1 := by
  unfold passed
  split_ifs with h1 h2 h2
  · exact .inl ⟨by norm_num, .inl h2⟩
  · exact .inr (by norm_num)
  · linarith
  · exact .inl ⟨by norm_num, .inr (not_le.1 h1)⟩

/-- Three thresholds: none is passed between `a` and `b`, or the count grows. -/
theorem passed_three {x y z a b : ℝ} (h : a ≤ b) :
    ((x ≤ a ∨ b < x) ∧ (y ≤ a ∨ b < y) ∧ (z ≤ a ∨ b < z) ∧
      passed x b + passed y b + passed z b - (passed x a + passed y a + passed z a) = 0) ∨
    1 ≤ passed x b + passed y b + passed z b - (passed x a + passed y a + passed z a) := by
  have mx := passed_mono (b := x) h
  have my := passed_mono (b := y) h
  have mz := passed_mono (b := z) h
  rcases passed_eq (b := x) h with ⟨ex, hx⟩ | ex <;> rcases passed_eq (b := y) h with ⟨ey, hy⟩ | ey <;>
    rcases passed_eq (b := z) h with ⟨ez, hz⟩ | ez
  · exact .inl ⟨hx, hy, hz, by linarith⟩
  all_goals exact .inr (by linarith)

/-! ## Climb -/

/-- The climb rate of the loop as a function of the altitude. -/
noncomputable def ClimbParams.rate (P : ClimbParams) : ℝ → ℝ :=
  climbRate P.vsIc P.vsPre P.vsCas P.vsMach P.hCas P.hMach

theorem climb_rate {P : ClimbParams} (hP : P.Valid) : Rate P.rate P.vsMin P.vsMax where
  meas := by
    unfold ClimbParams.rate climbRate
    exact Measurable.ite measurableSet_Iio measurable_const (Measurable.ite measurableSet_Iio
      measurable_const (Measurable.ite measurableSet_Iio measurable_const measurable_const))
  pos := vsMin_pos hP
  low u := by
    unfold ClimbParams.rate climbRate ClimbParams.vsMin
    split_ifs <;> simp
  high u := by
    unfold ClimbParams.rate climbRate ClimbParams.vsMax
    split_ifs <;> simp

/-- Thresholds passed. -/
noncomputable def ClimbParams.count (P : ClimbParams) (h : ℝ) : ℝ :=
  passed (1500 * 0.3048) h + passed P.hCas h + passed P.hMach h

theorem count_le (P : ClimbParams) (h : ℝ) : P.count h ≤ 3 := by
  have := passed_le (1500 * 0.3048) h
  have := passed_le P.hCas h
  have := passed_le P.hMach h
  unfold ClimbParams.count
  linarith

theorem climb_passage {P : ClimbParams} (hP : P.Valid) (h : ℝ) :
    |P.dt - passage P.rate h (h + P.rate h * P.dt)| ≤
      P.vsMax / P.vsMin * P.dt * (P.count (h + P.rate h * P.dt) - P.count h) := by
  have hr := climb_rate hP
  have hd := hP.dt
  have hp := hr.pos.trans_le (hr.low h)
  have hh : h ≤ h + P.rate h * P.dt := by nlinarith
  refine hr.step hd.le hh (by nlinarith [hr.high h]) ?_
  rcases passed_three (x := 1500 * 0.3048) (y := P.hCas) (z := P.hMach) hh with ⟨c1, c2, c3, e⟩ | e
  · refine .inl ⟨e, ?_⟩
    rw [Rate.const (c := P.rate h) hh]
    · field_simp
      ring
    · intro u hu
      have i1 : u < 1500 * 0.3048 ↔ h < 1500 * 0.3048 :=
        ⟨fun i => hu.1.trans i, fun i => hu.2.trans (c1.resolve_left (not_le.2 i))⟩
      have i2 : u < P.hCas ↔ h < P.hCas :=
        ⟨fun i => hu.1.trans i, fun i => hu.2.trans (c2.resolve_left (not_le.2 i))⟩
      have i3 : u < P.hMach ↔ h < P.hMach :=
        ⟨fun i => hu.1.trans i, fun i => hu.2.trans (c3.resolve_left (not_le.2 i))⟩
      unfold ClimbParams.rate climbRate
      simp only [i1, i2, i3]
  · exact .inr e

/-- A row of the climb is close to the nominal climb. -/
def NearClimb (P : ClimbParams) (t h : ℝ) : Prop :=
  |t - P.vTof / P.aTof - passage P.rate 0 h| ≤ (2 + P.vsMax / P.vsMin * P.count h) * P.dt

/-- Invariant until the first level row. -/
def ClimbTime (P : ClimbParams) (x : ClimbState) : Prop :=
  (climbRank x.seg ≤ 1 ∧ x.h = 0 ∧ x.vs = 0 ∧ x.v = P.aTof * x.t ∧ 0 ≤ x.t ∧
    x.t < P.vTof / P.aTof + P.dt) ∨
  (2 ≤ climbRank x.seg ∧ climbRank x.seg ≤ 5 ∧ 0 ≤ x.h ∧ x.h < P.level ∧ x.vs = P.rate x.h ∧
    P.vTof ≤ x.v ∧ NearClimb P x.t x.h) ∨
  (x.seg = some .CR ∧ P.level ≤ x.h ∧ x.h ≤ P.level + P.vsMax * P.dt ∧ NearClimb P x.t x.h)

theorem climbTime_step {P : ClimbParams} (hP : P.Valid) (h0 : 0 ≤ P.vTof)
    (hcas : (1 + 1e-8) * P.vTof ≤ P.vcas) (hmach : P.vTof ≤ 295 * P.mach) {x : ClimbState}
    (hx : ClimbTime P x) (hne : x.seg ≠ some .CR) : ClimbTime P (climbBody P x).1 := by
  have hdt := hP.dt
  have ha := hP.aTof
  have hr := climb_rate hP
  have hq := hr.ratio
  have ft0 : (1500 * ft : ℝ) = 1500 * 0.3048 := by unfold ft; norm_num
  -- what a pass does once the aircraft has lifted off
  have after : P.vTof ≤ x.v → 0 ≤ x.h + x.vs * P.dt →
      x.h + x.vs * P.dt ≤ P.level + P.vsMax * P.dt → NearClimb P (x.t + P.dt) (x.h + x.vs * P.dt) → ClimbTime P (climbBody P x).1 := by
    intro hv hh0 htop hn
    have vm : P.vTof ≤ mach2tas np P.mach (x.h + x.vs * P.dt) 0 := by
      unfold mach2tas
      have := vsound_lower (x.h + x.vs * P.dt)
      have := hP.mach
      nlinarith
    have vc : P.vTof ≤ cas2tas np P.vcas (x.h + x.vs * P.dt) 0 := by
      have := cas2tas_ge (v := P.vcas) (by nlinarith) hh0
      have h3 : (1 + 1e-8) * P.vTof ≤ (1 + 1e-8) * cas2tas np P.vcas (x.h + x.vs * P.dt) 0 :=
        hcas.trans this
      exact le_of_mul_le_mul_left h3 (by norm_num)
    unfold climbBody
    dsimp only
    rw [if_neg (not_lt.2 hv), ft0]
    split_ifs with c2 c3 c4 c5 c6 c7 c8
    all_goals first
      | exact .inr (.inr ⟨rfl, level_le.2 ⟨by linarith, by linarith, by linarith, by linarith⟩, htop, hn⟩)
      | refine .inr (.inl ⟨by simp [climbRank], by simp [climbRank], hh0,
          not_le.1 fun hl => by obtain ⟨l1, l2, l3, l4⟩ := level_le.1 hl; linarith, ?_, by
          first | exact vc | exact vm | (show P.vTof ≤ x.v + 0.5 * P.dt; linarith), hn⟩)
        show _ = climbRate _ _ _ _ _ _ _
        simp [climbRate, *]
  rcases hx with ⟨k1, k2, k3, k4, k5, k6⟩ | ⟨k1, k2, k3, k7, k4, k5, k6⟩ | ⟨k, -⟩
  · by_cases hv : x.v < P.vTof
    · left
      have e : (climbBody P x).1 = { t := x.t + P.dt, s := x.s + x.v * P.dt, h := x.h + x.vs * P.dt, v := x.v + P.aTof * P.dt, vs := 0, seg := some .TO, tcr := x.tcr } := by
        unfold climbBody
        dsimp only
        rw [if_pos hv]
      rw [e]
      refine ⟨by simp [climbRank], by simp [k2, k3], rfl, ?_, by simp only; linarith, ?_⟩
      · simp only [k4]; ring
      · simp only
        have : x.t < P.vTof / P.aTof := by
          rw [lt_div_iff₀ ha]
          linarith
        linarith
    · have hv := not_lt.1 hv
      have lp := level_pos P
      have mp := hr.pos.trans_le hr.le
      refine after hv (by rw [k2, k3]; simp) (by rw [k2, k3]; nlinarith) ?_
      have t1 : P.vTof / P.aTof ≤ x.t := by
        rw [div_le_iff₀ ha]
        linarith
      unfold NearClimb
      rw [k2, k3]
      simp only [zero_mul, add_zero]
      have : passage P.rate 0 0 = 0 := intervalIntegral.integral_same
      rw [this]
      have c0 : 0 ≤ P.count 0 := by
        unfold ClimbParams.count
        have := passed_nonneg (1500 * 0.3048) 0
        have := passed_nonneg P.hCas 0
        have := passed_nonneg P.hMach 0
        linarith
      have : 0 ≤ P.vsMax / P.vsMin * P.count 0 * P.dt := by positivity
      rw [abs_le]
      constructor <;> linarith
  · have hs := climb_passage hP x.h
    have hpos := hr.pos.trans_le (hr.low x.h)
    refine after k5 (by rw [k4]; positivity) (by rw [k4]; nlinarith [hr.high x.h]) ?_
    unfold NearClimb at k6 ⊢
    rw [k4, hr.add 0 x.h]
    rw [abs_le] at *
    constructor <;> linarith
  · exact absurd k hne

/-- Up to its first level row the climb is close to the nominal climb. -/
theorem climb_near {P : ClimbParams} (hP : P.Valid) (h0 : 0 ≤ P.vTof)
    (hcas : (1 + 1e-8) * P.vTof ≤ P.vcas) (hmach : P.vTof ≤ 295 * P.mach) {s : ClimbState}
    {ss : List ClimbState} (h : Trace (climbBody P) s ss) (hs : ClimbTime P s) :
    ∀ pre x post, ss = pre ++ x :: post → (∀ y ∈ pre, y.seg ≠ some .CR) → ClimbTime P x := by
  induction h with
  | @last s hb =>
    intro pre x post e _
    rcases pre with _ | ⟨y, pre⟩
    · cases e; exact hs
    · simp at e
  | @step s ss hb ht ih =>
    intro pre x post e hpre
    rcases pre with _ | ⟨y, pre⟩
    · cases e; exact hs
    · simp only [List.cons_append, List.cons.injEq] at e
      obtain ⟨rfl, e⟩ := e
      exact ih (climbTime_step hP h0 hcas hmach hs (hpre _ (by simp))) pre x post e
        fun z hz => hpre z (by simp [hz])

/-- Near the nominal time of the level-off altitude when the first level row is reached. -/
theorem climbTime_top {P : ClimbParams} (hP : P.Valid) {x : ClimbState} (hx : ClimbTime P x)
    (hs : x.seg = some .CR) : P.level ≤ x.h ∧ x.h ≤ P.level + P.vsMax * P.dt ∧
      |x.t - P.vTof / P.aTof - passage P.rate 0 P.level| ≤ (2 + 4 * (P.vsMax / P.vsMin)) * P.dt := by
  rcases hx with ⟨k, -⟩ | ⟨-, k, -⟩ | ⟨-, k1, k2, k3⟩
  · simp [hs, climbRank] at k
  · simp [hs, climbRank] at k
  · refine ⟨k1, k2, ?_⟩
    have hr := climb_rate hP
    have a1 := hr.nonneg k1
    have a2 := hr.upper k1
    have a3 : (x.h - P.level) / P.vsMin ≤ P.vsMax / P.vsMin * P.dt := by
      rw [div_mul_eq_mul_div]
      exact div_le_div_of_nonneg_right (by linarith) hr.pos.le
    have c := count_le P x.h
    have hq := hr.ratio
    have hd := hP.dt
    have c2 : P.vsMax / P.vsMin * P.dt * P.count x.h ≤ P.vsMax / P.vsMin * P.dt * 3 :=
      mul_le_mul_of_nonneg_left c (by positivity)
    unfold NearClimb at k3
    rw [hr.add 0 P.level] at k3
    rw [abs_le] at *
    constructor <;> nlinarith

/-! ## Descent -/

/-- Steepest descent rate. -/
noncomputable def DescentParams.vsMax (P : DescentParams) : ℝ :=
  max (max (-P.vsMach) (-P.vsCas)) (max (-P.vsPost) (-P.vsFa))

/-- The rate of descent of the loop as a function of the altitude. -/
noncomputable def DescentParams.rate (P : DescentParams) : ℝ → ℝ :=
  sinkRate (-P.vsMach) (-P.vsCas) (-P.vsPost) (-P.vsFa) P.hMach P.hCas

theorem descent_rate {P : DescentParams} (hP : P.Valid) : Rate P.rate P.vsMin P.vsMax where
  meas := by
    unfold DescentParams.rate sinkRate
    exact Measurable.ite measurableSet_Ioi measurable_const (Measurable.ite measurableSet_Ioi
      measurable_const (Measurable.ite measurableSet_Ioi measurable_const measurable_const))
  pos := descent_vsMin_pos hP
  low u := by
    unfold DescentParams.rate sinkRate DescentParams.vsMin
    split_ifs <;> simp
  high u := by
    unfold DescentParams.rate sinkRate DescentParams.vsMax
    split_ifs <;> simp

/-- Thresholds passed. -/
noncomputable def DescentParams.count (P : DescentParams) (h : ℝ) : ℝ :=
  passed (-P.hMach) (-h) + passed (-P.hCas) (-h) + passed (-(1000 * 0.3048)) (-h)

theorem descent_count_le (P : DescentParams) (h : ℝ) : P.count h ≤ 3 := by
  have := passed_le (-P.hMach) (-h)
  have := passed_le (-P.hCas) (-h)
  have := passed_le (-(1000 * 0.3048)) (-h)
  unfold DescentParams.count
  linarith

theorem descent_count_nonneg (P : DescentParams) (h : ℝ) : 0 ≤ P.count h := by
  have := passed_nonneg (-P.hMach) (-h)
  have := passed_nonneg (-P.hCas) (-h)
  have := passed_nonneg (-(1000 * 0.3048)) (-h)
  unfold DescentParams.count
  linarith

theorem descent_passage {P : DescentParams} (hP : P.Valid) (h : ℝ) :
    |P.dt - passage P.rate (h - P.rate h * P.dt) h| ≤
      P.vsMax / P.vsMin * P.dt * (P.count (h - P.rate h * P.dt) - P.count h) := by
  have hr := descent_rate hP
  have hd := hP.dt
  have hp := hr.pos.trans_le (hr.low h)
  have hh : h - P.rate h * P.dt ≤ h := by nlinarith
  refine hr.step hd.le hh (by nlinarith [hr.high h]) ?_
  rcases passed_three (x := -P.hMach) (y := -P.hCas) (z := -(1000 * 0.3048)) (neg_le_neg hh) with
    ⟨c1, c2, c3, e⟩ | e
  · refine .inl ⟨e, ?_⟩
    rw [neg_le_neg_iff, neg_lt_neg_iff] at c1 c2 c3
    rw [Rate.const (c := P.rate h) hh]
    · field_simp
      ring
    · intro u hu
      have i1 : P.hMach < u ↔ P.hMach < h :=
        ⟨fun i => i.trans hu.2, fun i => (c1.resolve_left (not_le.2 i)).trans hu.1⟩
      have i2 : P.hCas < u ↔ P.hCas < h :=
        ⟨fun i => i.trans hu.2, fun i => (c2.resolve_left (not_le.2 i)).trans hu.1⟩
      have i3 : 1000 * 0.3048 < u ↔ 1000 * 0.3048 < h :=
        ⟨fun i => i.trans hu.2, fun i => (c3.resolve_left (not_le.2 i)).trans hu.1⟩
      unfold DescentParams.rate sinkRate
      simp only [i1, i2, i3]
  · exact .inr e

/-- How long the descent stays at the cruise altitude. -/
noncomputable def DescentParams.wait (P : DescentParams) : ℝ := if P.withcr = true then 60 else 0

/-- Invariant until the first landing row. -/
def DescentTime (P : DescentParams) (x : Row) : Prop :=
  (descentRank x.seg ≤ 1 ∧ x.h = P.hCr ∧ x.vs = 0 ∧ 0 ≤ x.t ∧ x.t ≤ P.wait) ∨
  (2 ≤ descentRank x.seg ∧ descentRank x.seg ≤ 5 ∧ 0 < x.h ∧ x.vs = -P.rate x.h ∧ P.wait ≤ x.t ∧
    |x.t - P.wait - passage P.rate x.h P.hCr| ≤ (1 + P.vsMax / P.vsMin * P.count x.h) * P.dt) ∨
  (x.seg = some .LD ∧ x.h = 0 ∧
    |x.t - P.wait - passage P.rate 0 P.hCr| ≤ (1 + 4 * (P.vsMax / P.vsMin)) * P.dt)

theorem descentTime_step {P : DescentParams} (hP : P.Valid) {x : Row}
    (hx : DescentTime P x) (hne : x.seg ≠ some .LD) : DescentTime P (descentBody P x).1 := by
  have hdt := hP.dt
  have hr := descent_rate hP
  have hq := hr.ratio
  have p1 := hP.hMach
  have p2 := hP.hCas
  have ft0 : (1000 * ft : ℝ) = 1000 * 0.3048 := by unfold ft; norm_num
  -- what a pass does once the descent has begun
  have after : ¬ (x.t + P.dt < 60 ∧ P.withcr = true) → P.wait ≤ x.t + P.dt →
      (0 < x.h + x.vs * P.dt → |x.t + P.dt - P.wait - passage P.rate (x.h + x.vs * P.dt) P.hCr| ≤
        (1 + P.vsMax / P.vsMin * P.count (x.h + x.vs * P.dt)) * P.dt) →
      (x.h + x.vs * P.dt ≤ 0 → |x.t + P.dt - P.wait - passage P.rate 0 P.hCr| ≤
        (1 + 4 * (P.vsMax / P.vsMin)) * P.dt) → DescentTime P (descentBody P x).1 := by
    intro c1 hw n1 n2
    unfold descentBody
    dsimp only
    rw [if_neg c1, ft0]
    split_ifs with c2 c3 c4 c5 c6
    all_goals first
      | exact .inr (.inr ⟨rfl, rfl, n2 (by linarith)⟩)
      | have hh : 0 < x.h + x.vs * P.dt := by linarith
        refine .inr (.inl ⟨by simp [descentRank], by simp [descentRank], hh, ?_, hw, n1 hh⟩)
        show _ = -sinkRate _ _ _ _ _ _ _
        simp [sinkRate, *]
  rcases hx with ⟨k1, k2, k3, k4, k5⟩ | ⟨k1, k2, k3, k4, k5, k6⟩ | ⟨k, -⟩
  · by_cases c : x.t + P.dt < 60 ∧ P.withcr = true
    · left
      unfold descentBody
      dsimp only
      rw [if_pos c]
      refine ⟨by simp [descentRank], by simp [k2, k3], rfl, by simp only; linarith, ?_⟩
      simp only [DescentParams.wait, c.2, if_true]
      exact c.1.le
    · have hw : P.wait ≤ x.t + P.dt := by
        unfold DescentParams.wait
        split_ifs with w
        · exact not_lt.1 fun h => c ⟨h, w⟩
        · linarith
      have e : x.h + x.vs * P.dt = P.hCr := by simp [k2, k3]
      have z : passage P.rate P.hCr P.hCr = 0 := intervalIntegral.integral_same
      refine after c hw ?_ ?_
      · intro _
        have := descent_count_nonneg P P.hCr
        have : 0 ≤ P.vsMax / P.vsMin * P.count P.hCr * P.dt := by positivity
        rw [e, z, abs_le]
        constructor <;> linarith
      · intro h
        have : P.hCr = 0 := le_antisymm (e ▸ h) hP.hCr
        rw [this] at z ⊢
        have : 0 ≤ P.vsMax / P.vsMin * P.dt := by positivity
        rw [z, abs_le]
        constructor <;> linarith
  · have hpos := hr.pos.trans_le (hr.low x.h)
    have c : ¬ (x.t + P.dt < 60 ∧ P.withcr = true) := by
      rintro ⟨c1, c2⟩
      simp only [DescentParams.wait, c2, if_true] at k5
      linarith
    have e : x.h + x.vs * P.dt = x.h - P.rate x.h * P.dt := by rw [k4]; ring
    refine after c (by linarith) ?_ ?_
    · intro _
      have hs := descent_passage hP x.h
      rw [e, hr.add _ x.h]
      rw [abs_le] at *
      constructor <;> linarith
    · intro h
      have hs := hr.step (a := 0) (b := x.h) (k := 1) hdt.le k3.le
        (by rw [e] at h; nlinarith [hr.high x.h]) (.inr le_rfl)
      have c2 : P.vsMax / P.vsMin * P.dt * P.count x.h ≤ P.vsMax / P.vsMin * P.dt * 3 :=
        mul_le_mul_of_nonneg_left (descent_count_le P x.h) (by positivity)
      rw [hr.add _ x.h]
      rw [abs_le] at *
      constructor <;> linarith
  · exact absurd k hne

/-- Up to its first landing row the descent is close to the nominal descent. -/
theorem descent_near {P : DescentParams} (hP : P.Valid) {s : Row}
    {ss : List Row} (h : Trace (descentBody P) s ss) (hs : DescentTime P s) :
    ∀ pre x post, ss = pre ++ x :: post → (∀ y ∈ pre, y.seg ≠ some .LD) → DescentTime P x := by
  induction h with
  | @last s hb =>
    intro pre x post e _
    rcases pre with _ | ⟨y, pre⟩
    · cases e; exact hs
    · simp at e
  | @step s ss hb ht ih =>
    intro pre x post e hpre
    rcases pre with _ | ⟨y, pre⟩
    · cases e; exact hs
    · simp only [List.cons_append, List.cons.injEq] at e
      obtain ⟨rfl, e⟩ := e
      exact ih (descentTime_step hP hs (hpre _ (by simp))) pre x post e
        fun z hz => hpre z (by simp [hz])

end Verif.Gen
