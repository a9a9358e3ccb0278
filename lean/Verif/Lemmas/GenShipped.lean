import Verif.Lemmas.GenFrame
import Verif.Lemmas.Construct

/-!
# The generator on the shipped tables
-/

namespace Verif.Gen
open Verif Verif.Aero Verif.Tables Verif.Kinematic Verif.Registry
open Verif.Data (shipped)

/-- Entry of a variable, with bounds. -/
def entryIn (w : List WrapRow) (lo hi : ℤ) (v : Str) : Bool :=
  match getVar w v with
  | .ok r => decide (lo ≤ r.min ∧ lo ≤ r.opt ∧ r.min ≤ r.max ∧ r.opt ≤ hi ∧ r.max ≤ hi)
  | .error _ => false

/-- Bounds used below, on any kinematic table. -/
def tableOk (w : List WrapRow) : Bool :=
  [takeoffAcceleration, climbVsPreConcas, climbVsConcas, climbVsConmach, initclimbVs].all
    (entryIn w 1 1000000000) &&
  entryIn w 620000 1000000 finalappVcas &&
  (match getVar w takeoffSpeed with
    | .ok r => decide (800000 ≤ r.opt ∧ r.opt ≤ 970000) | .error _ => false) &&
  entryIn w 1300000 1000000000 climbConstVcas &&
  [climbConstMach, descentConstMach, cruiseMach].all (entryIn w 5000 10000) &&
  entryIn w 90000 130000 cruiseAlt &&
  (match getVar w climbCrossAltConcas with
    | .ok r => decide (30000 ≤ r.opt ∧ r.opt ≤ 45000) | .error _ => false) &&
  (match getVar w cruiseRange with
    | .ok r => decide (0 < r.opt ∧ r.min ≤ r.max) | .error _ => false) &&
  (match getVar w descentConstVcas with
    | .ok r => decide (1000000 ≤ r.min ∧ r.min ≤ r.max ∧ 1400000 ≤ r.opt ∧ r.opt ≤ 1700000 ∧
        r.max ≤ 1700000)
    | .error _ => false) &&
  (match getVar w descentCrossAltConcas with
    | .ok r => decide (0 < r.opt) | .error _ => false) &&
  (match getVar w landingAcceleration with
    | .ok r => decide (-20000 ≤ r.opt ∧ r.opt < 0) | .error _ => false) &&
  [descentVsConmach, descentVsConcas, descentVsPostConcas, finalappVs].all
    (entryIn w (-1000000) (-1))

theorem shipped_tables : (availableAircraft shipped true).all (fun ac =>
    match Gen.init shipped ac () true with
    | .ok f => tableOk f.wrap
    | .error _ => false) = true := by
  decide +kernel

theorem wreal_le {a b : ℤ} (h : a ≤ b) : wreal a ≤ wreal b := by
  unfold wreal
  have : (a:ℝ) ≤ b := by exact_mod_cast h
  gcongr

theorem wreal_ge {a : ℤ} {c : ℤ} (h : c ≤ a) : (c:ℝ) / 10 ^ 4 ≤ wreal a := wreal_le h

section
variable {G : Type} {R : Rng G}

theorem uniform_mem (hR : R.Unit) {lo hi : ℤ} (h : lo ≤ hi) (g : G) :
    wreal lo ≤ (uniform R g lo hi).1 ∧ (uniform R g lo hi).1 ≤ wreal hi := by
  have h1 := wreal_le h
  obtain ⟨h2, h3⟩ := hR g
  unfold uniform
  constructor <;> simp only <;> nlinarith

/-- An entry and what is known of it. -/
theorem entry_of {w : List WrapRow} {lo hi : ℤ} {v : Str} (h : entryIn w lo hi v = true) :
    ∃ r, getVar w v = .ok r ∧ lo ≤ r.min ∧ lo ≤ r.opt ∧ r.min ≤ r.max ∧ r.opt ≤ hi ∧
      r.max ≤ hi := by
  unfold entryIn at h
  split at h
  · next r hr => exact ⟨r, hr, of_decide_eq_true h⟩
  · cases h

theorem entry_of' {w : List WrapRow} {p : WrapRow → Prop} [DecidablePred p] {v : Str}
    (h : (match getVar w v with | .ok r => decide (p r) | .error _ => false) = true) :
    ∃ r, getVar w v = .ok r ∧ p r := by
  split at h
  · next r hr => exact ⟨r, hr, of_decide_eq_true h⟩
  · cases h

theorem round_near (x : ℝ) : |roundHundreds x - x| ≤ 50 := by
  unfold roundHundreds
  simp only
  have h1 := Int.floor_le (x / 100)
  have h2 := Int.lt_floor_add_one (x / 100)
  have e : x = 100 * (x / 100) := by ring
  generalize x / 100 = y at *
  subst e
  rw [abs_le]
  split_ifs <;> constructor <;> linarith

theorem round_multiple (x : ℝ) : ∃ k : ℤ, roundHundreds x = 100 * k := by
  unfold roundHundreds
  simp only
  split_ifs
  · exact ⟨_, rfl⟩
  · exact ⟨⌊x / 100⌋ + 1, by push_cast; ring⟩
  · exact ⟨_, rfl⟩
  · exact ⟨⌊x / 100⌋ + 1, by push_cast; ring⟩

theorem round_nonneg {x : ℝ} (h : 0 ≤ x) : 0 ≤ roundHundreds x := by
  have hf : 0 ≤ ⌊x / 100⌋ := Int.floor_nonneg.2 (by positivity)
  have : (0:ℝ) ≤ (⌊x / 100⌋ : ℝ) := by exact_mod_cast hf
  unfold roundHundreds
  simp only
  split_ifs <;> linarith

theorem getD_cases {p : ℝ → Prop} {o : Option ℝ} {d : ℝ} (h : ∀ x, o = some x → p x) (hd : p d) :
    p (o.getD d) := by
  cases o with
  | none => exact hd
  | some x => exact h x rfl

theorem climbSetup_ok {f : FlightGen G} (hw : tableOk f.wrap = true) (hR : R.Unit) {kw : Kw}
    (hdt : ∀ d, kw.dt = some d → 0 < d) (hm : ∀ m, kw.machCl = some m → 0 ≤ m) :
    ∃ P g, climbSetup R f kw = .ok (P, g) ∧ P.Valid ∧ 3000 ≤ P.hCas ∧ P.hCas ≤ 4500 ∧
      80 ≤ P.vTof ∧ P.vTof ≤ 97 ∧ (kw.casCl = none → 130 ≤ P.vcas) ∧
      (∀ c, kw.casCl = some c → c * 0.514444 ≤ P.vcas) ∧
      (kw.machCl = none → 0.5 ≤ P.mach) ∧ (∀ m, kw.machCl = some m → P.mach = m) ∧
      (∀ a, kw.altCr = some a → P.alt = roundHundreds a) := by
  simp only [tableOk, Bool.and_eq_true, List.all_cons, List.all_nil, Bool.and_true] at hw
  obtain ⟨⟨⟨⟨⟨⟨⟨⟨⟨⟨⟨⟨x1, x2, x3, x4, x5⟩, x6⟩, y1⟩, y2⟩, z1, z2, z3⟩, y3⟩, y4⟩, y5⟩, y6⟩, y7⟩, y8⟩,
    v1, v2, v3, v4⟩ := hw
  obtain ⟨aTof, e1, a1⟩ := entry_of x1
  obtain ⟨wPre, e2, a2⟩ := entry_of x2
  obtain ⟨wCon, e3, a3⟩ := entry_of x3
  obtain ⟨wCom, e4, a4⟩ := entry_of x4
  obtain ⟨wIc, e5, a5⟩ := entry_of x5
  obtain ⟨wCas, e6, a6⟩ := entry_of y2
  obtain ⟨wMach, e7, a7⟩ := entry_of z1
  obtain ⟨wAlt, e8, a8⟩ := entry_of y3
  obtain ⟨vTof, e9, a9⟩ := entry_of' y1
  obtain ⟨wX, e10, a10⟩ := entry_of' y4
  have hdt' : 0 < kw.dt.getD 1 := getD_cases hdt one_pos
  have p1 := wreal_ge a1.2.1
  have p2 := wreal_ge a2.2.1
  have p3 := wreal_ge a3.2.1
  have p4 := wreal_ge a4.2.1
  have p5 := wreal_ge a5.2.1
  have p7 := wreal_ge a7.2.1
  have p6 := wreal_ge a6.2.1
  have q9 := wreal_le a9.2
  have p9 := wreal_ge a9.1
  have q10 := wreal_le a10.2
  have p10 := wreal_ge a10.1
  have r2 := wreal_ge a2.1
  have r3 := wreal_ge a3.1
  have r4 := wreal_ge a4.1
  have r6 := wreal_ge a6.1
  have r7 := wreal_ge a7.1
  have c9 : wreal 970000 = 97 := by unfold wreal; norm_num
  have c10 : wreal 45000 = 4.5 := by unfold wreal; norm_num
  norm_num at p1 p2 p3 p4 p5 p6 p7 p9 p10 r2 r3 r4 r6 r7
  unfold climbSetup
  simp only [e1, e2, e3, e4, e5, e6, e7, e8, e9, e10, bind, Except.bind, pure, Except.pure]
  by_cases hr : kw.random.getD false = true
  · rw [if_pos hr]
    have u2 := fun g => (uniform_mem hR a2.2.2.1 g).1
    have u3 := fun g => (uniform_mem hR a3.2.2.1 g).1
    have u4 := fun g => (uniform_mem hR a4.2.2.1 g).1
    have u6 := fun g => (uniform_mem hR a6.2.2.1 g).1
    have u7 := fun g => (uniform_mem hR a7.2.2.1 g).1
    refine ⟨_, _, rfl, ⟨hdt', ?_, ?_, ?_, ?_, ?_, ?_⟩, ?_, ?_, ?_, ?_, ?_, ?_, ?_, ?_, ?_⟩
    · simp only; linarith
    · simp only; linarith
    · exact lt_of_lt_of_le (by norm_num) (r2.trans (u2 _))
    · exact lt_of_lt_of_le (by norm_num) (r3.trans (u3 _))
    · exact lt_of_lt_of_le (by norm_num) (r4.trans (u4 _))
    · exact getD_cases hm ((le_trans (by norm_num) r7).trans (u7 _))
    · simp only; linarith
    · simp only; linarith
    · simp only; linarith
    · simp only; linarith
    · intro h
      simp only [h, Option.getD_none]
      rw [div_mul_cancel₀ _ (by unfold kts; norm_num)]
      exact r6.trans (u6 _)
    · intro c h
      simp only [h, Option.getD_some]
      exact le_rfl
    · intro h
      simp only [h, Option.getD_none]
      exact le_trans (by norm_num) (r7.trans (u7 _))
    · intro m h
      simp only [h, Option.getD_some]
    · intro m h
      simp only [h, Option.getD_some]
  · rw [if_neg hr]
    refine ⟨_, _, rfl, ⟨hdt', ?_, ?_, ?_, ?_, ?_, ?_⟩, ?_, ?_, ?_, ?_, ?_, ?_, ?_, ?_, ?_⟩
    · simp only; linarith
    · simp only; linarith
    · simp only; linarith
    · simp only; linarith
    · simp only; linarith
    · exact getD_cases hm (by linarith)
    · simp only; linarith
    · simp only; linarith
    · simp only; linarith
    · simp only; linarith
    · intro h
      simp only [h, Option.getD_none]
      have hk : (0:ℝ) < kts := by unfold kts; norm_num
      rw [max_mul_of_nonneg _ _ hk.le, div_mul_cancel₀ _ hk.ne']
      exact le_max_of_le_left (by linarith)
    · intro c h
      simp only [h, Option.getD_some]
      have hk : (0:ℝ) < kts := by unfold kts; norm_num
      rw [max_mul_of_nonneg _ _ hk.le]
      exact le_max_of_le_left le_rfl
    · intro h
      simp only [h, Option.getD_none]
      linarith
    · intro m h
      simp only [h, Option.getD_some]
    · intro m h
      simp only [h, Option.getD_some]

theorem descentSetup_ok {f : FlightGen G} (hw : tableOk f.wrap = true) (hR : R.Unit) {kw : Kw}
    (hk : kw.Sensible) :
    ∃ P g, descentSetup R f kw = .ok (P, g) ∧ P.Valid ∧ 0.5 ≤ P.mach ∧ 62 ≤ P.vApp := by
  simp only [tableOk, Bool.and_eq_true, List.all_cons, List.all_nil, Bool.and_true] at hw
  obtain ⟨⟨⟨⟨⟨⟨⟨⟨⟨⟨⟨⟨x1, x2, x3, x4, x5⟩, x6⟩, y1⟩, y2⟩, z1, z2, z3⟩, y3⟩, y4⟩, y5⟩, y6⟩, y7⟩, y8⟩,
    v1, v2, v3, v4⟩ := hw
  obtain ⟨vApp, e1, a1⟩ := entry_of x6
  obtain ⟨wCom, e2, a2⟩ := entry_of v1
  obtain ⟨wCon, e3, a3⟩ := entry_of v2
  obtain ⟨wPost, e4, a4⟩ := entry_of v3
  obtain ⟨wFa, e5, a5⟩ := entry_of v4
  obtain ⟨wCas, e6, a6⟩ := entry_of' y6
  obtain ⟨wMach, e7, a7⟩ := entry_of z2
  obtain ⟨wAlt, e8, a8⟩ := entry_of y3
  obtain ⟨wX, e9, a9⟩ := entry_of' y7
  obtain ⟨aLnd, e10, a10⟩ := entry_of' y8
  have hdt' : 0 < kw.dt.getD 1 := getD_cases hk.dt one_pos
  have p1 := wreal_ge a1.2.1
  have q2 := wreal_le a2.2.2.2.1
  have q3 := wreal_le a3.2.2.2.1
  have q4 := wreal_le a4.2.2.2.1
  have q5 := wreal_le a5.2.2.2.1
  have s2 := wreal_le a2.2.2.2.2
  have s3 := wreal_le a3.2.2.2.2
  have s4 := wreal_le a4.2.2.2.2
  have p6 := wreal_ge a6.2.2.1
  have q6 := wreal_le a6.2.2.2.1
  have r6 := wreal_ge a6.1
  have s6 := wreal_le a6.2.2.2.2
  have p7 := wreal_ge a7.2.1
  have r7 := wreal_ge a7.1
  have p8 := wreal_ge a8.2.1
  have r8 := wreal_ge a8.1
  have p9 : 0 < wreal wX.opt := by
    unfold wreal
    have : (0:ℝ) < wX.opt := by exact_mod_cast a9
    positivity
  have p10 : wreal aLnd.opt < 0 := by
    unfold wreal
    have : ((aLnd.opt : ℤ) : ℝ) < 0 := by exact_mod_cast a10.2
    exact div_neg_of_neg_of_pos this (by norm_num)
  have c1 : wreal (-1) = -0.0001 := by unfold wreal; norm_num
  have c2 : wreal 1700000 = 170 := by unfold wreal; norm_num
  have hks : (0:ℝ) < kts := by unfold kts; norm_num
  have hft : (0:ℝ) < ft := by unfold ft; norm_num
  norm_num at p1 p6 p7 p8 r6 r7 r8
  -- crossover altitude is not below sea level
  have cross : ∀ cas m : ℝ, 0 < cas * kts → cas * kts ≤ 170 → 0.5 ≤ m →
      0 ≤ crossoverAlt np (cas * kts) m 0 := by
    intro cas m h0 h1 h2
    by_contra hn
    push Not at hn
    have := (crossover_neg h0 (by linarith)).1 hn
    rw [lt_div_iff₀ (by norm_num)] at this
    linarith
  unfold descentSetup
  simp only [e1, e2, e3, e4, e5, e6, e7, e8, e9, e10, bind, Except.bind, pure, Except.pure]
  by_cases hr : kw.random.getD false = true
  · rw [if_pos hr]
    have u2 := fun g => (uniform_mem hR a2.2.2.1 g).2
    have u3 := fun g => (uniform_mem hR a3.2.2.1 g).2
    have u4 := fun g => (uniform_mem hR a4.2.2.1 g).2
    have u6 := fun g => (uniform_mem hR a6.2.1 g)
    have u7 := fun g => (uniform_mem hR a7.2.2.1 g).1
    have u8 := fun g => (uniform_mem hR a8.2.2.1 g).1
    have hm : ∀ g, (0.5:ℝ) ≤ kw.machDe.getD (uniform R g wMach.min wMach.max).1 := fun g =>
      getD_cases hk.machDe (le_trans (by norm_num) (r7.trans (u7 g)))
    refine ⟨_, _, rfl, ⟨hdt', p10, ?_, ?_, ?_, ?_, ?_, ?_, ?_⟩, hm _, ?_⟩
    · exact lt_of_le_of_lt ((u2 _).trans s2) (by rw [c1]; norm_num)
    · exact lt_of_le_of_lt ((u3 _).trans s3) (by rw [c1]; norm_num)
    · exact lt_of_le_of_lt ((u4 _).trans s4) (by rw [c1]; norm_num)
    · simp only; linarith
    · simp only; linarith
    · have hc : ∀ g, 0 < kw.casDe.getD ((uniform R g wCas.min wCas.max).1 / kts) * kts ∧
          kw.casDe.getD ((uniform R g wCas.min wCas.max).1 / kts) * kts ≤ 170 := by
        intro g
        apply getD_cases (p := fun c => 0 < c * kts ∧ c * kts ≤ 170)
        · intro c h
          obtain ⟨h1, h2⟩ := hk.casDe c h
          exact ⟨by positivity, by unfold kts; linarith⟩
        · rw [div_mul_cancel₀ _ hks.ne']
          exact ⟨by linarith [(u6 g).1], by linarith [(u6 g).2]⟩
      exact cross _ _ (hc _).1 (hc _).2 (hm _)
    · refine mul_nonneg (round_nonneg (getD_cases hk.altCr ?_)) hft.le
      have : ∀ g, 0 ≤ (uniform R g wAlt.min wAlt.max).1 := fun g =>
        le_trans (by norm_num) (r8.trans (u8 g))
      have := this f.rng
      positivity
    · simp only; linarith
  · rw [if_neg hr]
    have hm : (0.5:ℝ) ≤ kw.machDe.getD (wreal wMach.opt) := getD_cases hk.machDe (by linarith)
    refine ⟨_, _, rfl, ⟨hdt', p10, ?_, ?_, ?_, ?_, ?_, ?_, ?_⟩, hm, ?_⟩
    · simp only; linarith
    · simp only; linarith
    · simp only; linarith
    · simp only; linarith
    · simp only; linarith
    · have hc : 0 < kw.casDe.getD (wreal wCas.opt / kts) * kts ∧
          kw.casDe.getD (wreal wCas.opt / kts) * kts ≤ 170 := by
        apply getD_cases (p := fun c => 0 < c * kts ∧ c * kts ≤ 170)
        · intro c h
          obtain ⟨h1, h2⟩ := hk.casDe c h
          exact ⟨by positivity, by unfold kts; linarith⟩
        · rw [div_mul_cancel₀ _ hks.ne']
          exact ⟨by linarith, by linarith⟩
      exact cross _ _ hc.1 hc.2 hm
    · refine mul_nonneg (round_nonneg (getD_cases hk.altCr ?_)) hft.le
      have : 0 ≤ wreal wAlt.opt := by linarith
      positivity
    · simp only; linarith

theorem cruiseSetup_ok {f : FlightGen G} (hw : tableOk f.wrap = true) (hR : R.Unit) {kw : Kw}
    (hk : kw.Sensible) :
    ∃ P g, cruiseSetup R f kw = .ok (P, g) ∧ 0 < P.dt ∧ 0.5 ≤ P.mach ∧ 0 ≤ P.alt := by
  simp only [tableOk, Bool.and_eq_true, List.all_cons, List.all_nil, Bool.and_true] at hw
  obtain ⟨⟨⟨⟨⟨⟨⟨⟨⟨⟨⟨⟨x1, x2, x3, x4, x5⟩, x6⟩, y1⟩, y2⟩, z1, z2, z3⟩, y3⟩, y4⟩, y5⟩, y6⟩, y7⟩, y8⟩,
    v1, v2, v3, v4⟩ := hw
  obtain ⟨wMach, e1, a1⟩ := entry_of z3
  obtain ⟨wAlt, e2, a2⟩ := entry_of y3
  obtain ⟨wRange, e3, a3⟩ := entry_of' y5
  have hdt' : 0 < kw.dt.getD 1 := getD_cases hk.dt one_pos
  have p1 := wreal_ge a1.2.1
  have r1 := wreal_ge a1.1
  have p2 := wreal_ge a2.2.1
  have r2 := wreal_ge a2.1
  have hft : (0:ℝ) < ft := by unfold ft; norm_num
  norm_num at p1 r1 p2 r2
  unfold cruiseSetup
  simp only [e1, e2, e3, bind, Except.bind, pure, Except.pure]
  by_cases hr : kw.random.getD false = true
  · rw [if_pos hr]
    refine ⟨_, _, rfl, hdt', ?_, ?_⟩
    · exact getD_cases hk.machCr (le_trans (by norm_num) (r1.trans (uniform_mem hR a1.2.2.1 _).1))
    · refine round_nonneg (getD_cases hk.altCr ?_)
      have h0 : ∀ g, 0 ≤ (uniform R g wAlt.min wAlt.max).1 := fun g =>
        le_trans (by norm_num) (r2.trans (uniform_mem hR a2.2.2.1 g).1)
      have := h0 (uniform R f.rng wRange.min wRange.max).2
      positivity
  · rw [if_neg hr]
    refine ⟨_, _, rfl, hdt', ?_, ?_⟩
    · exact getD_cases hk.machCr (by linarith)
    · refine round_nonneg (getD_cases hk.altCr ?_)
      have : 0 ≤ wreal wAlt.opt := by linarith
      positivity

/-- Construction of a generator for every offered type code. -/
theorem init_shipped {ac : Str} (hac : ac ∈ availableAircraft shipped true) (seed : G) :
    ∃ f, Gen.init shipped ac seed true = .ok f ∧ tableOk f.wrap = true ∧ f.noise = false ∧
      f.rng = seed := by
  have := List.all_eq_true.1 shipped_tables ac hac
  unfold Gen.init at this ⊢
  simp only [bind, Except.bind, pure, Except.pure] at this ⊢
  rcases h1 : Registry.aircraft shipped ac true with e | a
  · rw [h1] at this; simp at this
  · rw [h1] at this
    rcases h2 : Construct.wrap shipped ac (some true) with e | w
    · rw [h2] at this; simp at this
    · rw [h2] at this
      exact ⟨_, rfl, this, rfl, rfl⟩

end

end Verif.Gen
