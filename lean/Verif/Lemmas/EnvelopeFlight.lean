import Verif.Lemmas.EnvelopeShipped
import Verif.Lemmas.GenComplete
import Verif.Lemmas.GenFrame

/-!
# Flights on the shipped tables with default arguments
-/

namespace Verif.Gen
open Verif Verif.Aero Verif.Tables Verif.Kinematic Verif.Registry
open Verif.Data (shipped)

/-- What is known of a table. -/
structure TableFacts (w : List WrapRow) : Prop where
  aTof : 0 < wreal (look w takeoffAcceleration).opt ∧ wreal (look w takeoffAcceleration).opt ≤ 2.5
  vTof : 0 ≤ wreal (look w takeoffSpeed).opt ∧ wreal (look w takeoffSpeed).opt ≤ 97 ∧
    wreal (look w takeoffSpeed).opt ≤ wreal (look w climbConstVcas).opt
  cas : 130 ≤ wreal (look w climbConstVcas).opt
  mach : 0.5 ≤ wreal (look w climbConstMach).opt
  alt : 9000 ≤ wreal (look w cruiseAlt).opt * 1000
  hCas : 3000 ≤ wreal (look w climbCrossAltConcas).opt * 1000
  ic : 0 < wreal (look w initclimbVs).opt ∧ wreal (look w initclimbVs).opt ≤ 15
  pre : 0 < wreal (look w climbVsPreConcas).opt ∧ wreal (look w climbVsPreConcas).opt ≤ 15
  con : 0 < wreal (look w climbVsConcas).opt ∧ wreal (look w climbVsConcas).opt ≤ 15
  com : 0 < wreal (look w climbVsConmach).opt ∧ wreal (look w climbVsConmach).opt ≤ 15
  aLnd : wreal (look w landingAcceleration).opt ≤ -0.2
  vApp : 62 ≤ wreal (look w finalappVcas).opt ∧ wreal (look w finalappVcas).opt ≤ 100
  dcas : 140 ≤ wreal (look w descentConstVcas).opt
  dmach : 0.5 ≤ wreal (look w descentConstMach).opt ∧ wreal (look w descentConstMach).opt ≤ 0.9
  kmach : 0.5 ≤ wreal (look w cruiseMach).opt ∧ wreal (look w cruiseMach).opt ≤ 0.9
  dcom : wreal (look w descentVsConmach).opt < 0 ∧ -8 ≤ wreal (look w descentVsConmach).opt
  dcon : wreal (look w descentVsConcas).opt < 0 ∧ -11.5 ≤ wreal (look w descentVsConcas).opt
  dpost : wreal (look w descentVsPostConcas).opt < 0 ∧
    -11.5 ≤ wreal (look w descentVsPostConcas).opt
  dfa : wreal (look w finalappVs).opt < 0 ∧ -11.5 ≤ wreal (look w finalappVs).opt
  climb : ∀ v ∈ [climbConstMach, cruiseMach],
    wreal (look w climbCrossAltConcas).opt * 1000 <
      crossoverAlt np (wreal (look w climbConstVcas).opt) (wreal (look w v).opt) 0 ∧
    crossoverAlt np (wreal (look w climbConstVcas).opt) (wreal (look w v).opt) 0 < 11000 ∧
    crossoverAlt np (wreal (look w climbConstVcas).opt) (wreal (look w v).opt) 0 <
      wreal (look w cruiseAlt).opt * 1000 - 15.3
  descent : ∀ v ∈ [descentConstMach, cruiseMach],
    0 < crossoverAlt np (wreal (look w descentConstVcas).opt) (wreal (look w v).opt) 0 ∧
    crossoverAlt np (wreal (look w descentConstVcas).opt) (wreal (look w v).opt) 0 < 11000 ∧
    crossoverAlt np (wreal (look w descentConstVcas).opt) (wreal (look w v).opt) 0 <
      wreal (look w cruiseAlt).opt * 1000 - 15.3

/-- Crossover altitudes of a check. -/
theorem cross_facts {c m lo a : ℤ} (hc : 0 < c) (hm : 1 ≤ m) (h1 : lo < 400000)
    (h : crossIn c m lo (min 110000 (a - 153)) = true) :
    wreal lo * 1000 < crossoverAlt np (wreal c) (wreal m) 0 ∧
    crossoverAlt np (wreal c) (wreal m) 0 < 11000 ∧
    crossoverAlt np (wreal c) (wreal m) 0 < wreal a * 1000 - 15.3 := by
  obtain ⟨a1, a2⟩ := cross_of hc hm h1 (lt_of_le_of_lt (min_le_left _ _) (by norm_num)) h
  have b1 : ((min 110000 (a - 153) : ℤ) : ℝ) ≤ 110000 := by exact_mod_cast min_le_left _ _
  have b2 : ((min 110000 (a - 153) : ℤ) : ℝ) ≤ a - 153 := by exact_mod_cast min_le_right _ _
  refine ⟨?_, by linarith, ?_⟩
  · unfold wreal at *
    norm_num at *
    linarith
  · refine a2.trans_le ?_
    generalize ((min 110000 (a - 153) : ℤ) : ℝ) = y at *
    unfold wreal
    norm_num
    linarith

theorem table_facts {w : List WrapRow} (hw : tableOk w = true) (hs : scheduleOk w = true) :
    TableFacts w := by
  simp only [tableOk, Bool.and_eq_true, List.all_cons, List.all_nil, Bool.and_true] at hw
  obtain ⟨⟨⟨⟨⟨⟨⟨⟨⟨⟨⟨⟨x1, x2, x3, x4, x5⟩, x6⟩, y1⟩, y2⟩, z1, z2, z3⟩, y3⟩, y4⟩, y5⟩, y6⟩, y7⟩, y8⟩,
    v1, v2, v3, v4⟩ := hw
  obtain ⟨r1, e1, a1⟩ := entry_of x1
  obtain ⟨r2, e2, a2⟩ := entry_of x2
  obtain ⟨r3, e3, a3⟩ := entry_of x3
  obtain ⟨r4, e4, a4⟩ := entry_of x4
  obtain ⟨r5, e5, a5⟩ := entry_of x5
  obtain ⟨r6, e6, a6⟩ := entry_of y2
  obtain ⟨r7, e7, a7⟩ := entry_of z1
  obtain ⟨r8, e8, a8⟩ := entry_of y3
  obtain ⟨r9, e9, a9⟩ := entry_of' y1
  obtain ⟨r10, e10, a10⟩ := entry_of' y4
  obtain ⟨s1, d1, b1⟩ := entry_of' y8
  obtain ⟨s2, d2, b2⟩ := entry_of x6
  obtain ⟨s4, d4, b4⟩ := entry_of z2
  obtain ⟨s5, d5, b5⟩ := entry_of' y6
  obtain ⟨s6, d6, b6⟩ := entry_of v1
  obtain ⟨s7, d7, b7⟩ := entry_of v2
  obtain ⟨s8, d8, b8⟩ := entry_of v3
  obtain ⟨s9, d9, b9⟩ := entry_of v4
  obtain ⟨t1, k1, c1⟩ := entry_of z3
  simp only [scheduleOk, Bool.and_eq_true, decide_eq_true_eq] at hs
  have q1 := look_eq e1
  have q2 := look_eq e2
  have q3 := look_eq e3
  have q4 := look_eq e4
  have q5 := look_eq e5
  have q6 := look_eq e6
  have q7 := look_eq e7
  have q8 := look_eq e8
  have q9 := look_eq e9
  have q10 := look_eq e10
  have p1 := look_eq d1
  have p2 := look_eq d2
  have p4 := look_eq d4
  have p5 := look_eq d5
  have p6 := look_eq d6
  have p7 := look_eq d7
  have p8 := look_eq d8
  have p9 := look_eq d9
  have o1 := look_eq k1
  clear e1 e2 e3 e4 e5 e6 e7 e8 e9 e10 d1 d2 d4 d5 d6 d7 d8 d9 k1
  clear x1 x2 x3 x4 x5 x6 y1 y2 z1 z2 z3 y3 y4 y5 y6 y7 y8 v1 v2 v3 v4
  rw [q1, q2, q3, q4, q5, q6, q7, q8, q9, q10, p1, p4, p5, p6, p7, p8, p9, o1] at hs
  obtain ⟨⟨⟨⟨w1, w2⟩, w3⟩, w4⟩, g1, g2, g3, g4, g5, g6, g7, g8, g9, g10, g11, g12, g13⟩ := hs
  have up : ∀ {a : ℤ} (b : ℤ), a ≤ b → wreal a ≤ (b:ℝ) / 10 ^ 4 := fun b h => wreal_le h
  have lo : ∀ {a : ℤ} (b : ℤ), b ≤ a → (b:ℝ) / 10 ^ 4 ≤ wreal a := fun b h => wreal_ge h
  constructor
  · rw [q1]
    have := lo 1 a1.2.1
    have := up 25000 g1
    norm_num at *
    constructor <;> linarith
  · rw [q9, q6]
    have := lo 800000 a9.1
    have := up 970000 a9.2
    refine ⟨by norm_num at *; linarith, by norm_num at *; linarith, wreal_le g2⟩
  · rw [q6]
    have := lo 1300000 a6.2.1
    norm_num at *
    linarith
  · rw [q7]
    have := lo 5000 a7.2.1
    norm_num at *
    linarith
  · rw [q8]
    have := lo 90000 a8.2.1
    norm_num at *
    linarith
  · rw [q10]
    have := lo 30000 a10.1
    norm_num at *
    linarith
  · rw [q5]
    have := lo 1 a5.2.1
    have := up 150000 g10
    norm_num at *
    constructor <;> linarith
  · rw [q2]
    have := lo 1 a2.2.1
    have := up 150000 g11
    norm_num at *
    constructor <;> linarith
  · rw [q3]
    have := lo 1 a3.2.1
    have := up 150000 g12
    norm_num at *
    constructor <;> linarith
  · rw [q4]
    have := lo 1 a4.2.1
    have := up 150000 g13
    norm_num at *
    constructor <;> linarith
  · rw [p1]
    have := up (-2000) g3
    norm_num at *
    linarith
  · rw [p2]
    have := lo 620000 b2.2.1
    have := up 1000000 b2.2.2.2.1
    norm_num at *
    constructor <;> linarith
  · rw [p5]
    have := lo 1400000 b5.2.2.1
    norm_num at *
    linarith
  · rw [p4]
    have := lo 5000 b4.2.1
    have := up 9000 g8
    norm_num at *
    constructor <;> linarith
  · rw [o1]
    have := lo 5000 c1.2.1
    have := up 9000 g9
    norm_num at *
    constructor <;> linarith
  · rw [p6]
    have := up (-1) b6.2.2.2.1
    have := lo (-80000) (by omega : -80000 ≤ s6.opt)
    norm_num at *
    constructor <;> linarith
  · rw [p7]
    have := up (-1) b7.2.2.2.1
    have := lo (-115000) (by omega : -115000 ≤ s7.opt)
    norm_num at *
    constructor <;> linarith
  · rw [p8]
    have := up (-1) b8.2.2.2.1
    have := lo (-115000) (by omega : -115000 ≤ s8.opt)
    norm_num at *
    constructor <;> linarith
  · rw [p9]
    have := up (-1) b9.2.2.2.1
    have := lo (-115000) (by omega : -115000 ≤ s9.opt)
    norm_num at *
    constructor <;> linarith
  · intro v hv
    simp only [List.mem_cons, List.not_mem_nil, or_false] at hv
    rcases hv with rfl | rfl
    · rw [q10, q6, q7, q8]
      exact cross_facts (by omega) (by omega) (by omega) w1
    · rw [q10, q6, o1, q8]
      exact cross_facts (by omega) (by omega) (by omega) w2
  · have z : wreal 0 * 1000 = 0 := by unfold wreal; norm_num
    intro v hv
    simp only [List.mem_cons, List.not_mem_nil, or_false] at hv
    rcases hv with rfl | rfl
    · rw [p5, p4, q8]
      have := cross_facts (by omega) (by omega) (by omega) w3
      rwa [z] at this
    · rw [p5, o1, q8]
      have := cross_facts (by omega) (by omega) (by omega) w4
      rwa [z] at this

section
variable {G : Type} {R : Rng G}

/-- Cruise altitude of a default call. -/
theorem level_near {w : List WrapRow} {o : Option ℝ}
    (ho : o = none ∨ o = some (roundHundreds (wreal (look w cruiseAlt).opt * 1000 / ft))) :
    |roundHundreds (o.getD (wreal (look w cruiseAlt).opt * 1000 / ft)) * ft -
      wreal (look w cruiseAlt).opt * 1000| ≤ 15.24 := by
  have e : roundHundreds (o.getD (wreal (look w cruiseAlt).opt * 1000 / ft)) =
      roundHundreds (wreal (look w cruiseAlt).opt * 1000 / ft) := by
    rcases ho with rfl | rfl
    · rfl
    · rw [Option.getD_some, round_round]
  rw [e]
  have := round_near (wreal (look w cruiseAlt).opt * 1000 / ft)
  generalize roundHundreds (wreal (look w cruiseAlt).opt * 1000 / ft) = y at *
  have hf : (0:ℝ) < ft := by rw [ft_val]; norm_num
  have e2 : y * ft - wreal (look w cruiseAlt).opt * 1000 =
      (y - wreal (look w cruiseAlt).opt * 1000 / ft) * ft := by field_simp
  rw [e2, abs_mul, abs_of_pos hf]
  have := mul_le_mul_of_nonneg_right this hf.le
  rw [ft_val] at *
  linarith

theorem climb_schedule {f : FlightGen G} (hw : tableOk f.wrap = true)
    (hs : scheduleOk f.wrap = true) {kw : Kw} {P : ClimbParams} {g : G}
    (hr : kw.random.getD false = false) (hc : kw.casCl = none)
    (hm : kw.machCl = none ∨ kw.machCl = some (wreal (look f.wrap cruiseMach).opt))
    (ha : kw.altCr = none ∨
      kw.altCr = some (roundHundreds (wreal (look f.wrap cruiseAlt).opt * 1000 / ft)))
    (hd : ∀ d, kw.dt = some d → 0 < d ∧ d ≤ 10) (h : climbSetup R f kw = .ok (P, g)) :
    P.Valid ∧ P.Ordered ∧ P.hMach = crossoverAlt np P.vcas P.mach 0 ∧
    P.vcas = wreal (look f.wrap climbConstVcas).opt ∧
    (P.mach = wreal (look f.wrap climbConstMach).opt ∨
      P.mach = wreal (look f.wrap cruiseMach).opt) ∧
    P.level + P.vsMax * P.dt ≤ wreal (look f.wrap cruiseAlt).opt * 1000 + 165.3 := by
  have F := table_facts hw hs
  obtain ⟨e1, e2, e3, e4, e5, e6, e7, e8, e9, e10, e11, e12⟩ := climb_default hw hr hc h
  have hn := abs_le.1 (level_near ha)
  rw [← e6] at hn
  have hdt : 0 < P.dt ∧ P.dt ≤ 10 := by
    rw [e1]
    exact getD_cases (p := fun x => 0 < x ∧ x ≤ 10) hd ⟨by norm_num, by norm_num⟩
  have hk : (0:ℝ) < kts := by unfold kts; norm_num
  have hv : P.vcas = wreal (look f.wrap climbConstVcas).opt := by
    rw [e4, max_eq_left (div_le_div_of_nonneg_right F.vTof.2.2 hk.le), div_mul_cancel₀ _ hk.ne']
  have hmc : P.mach = wreal (look f.wrap climbConstMach).opt ∨
      P.mach = wreal (look f.wrap cruiseMach).opt := by
    rw [e5]
    rcases hm with hm | hm <;> rw [hm]
    · exact Or.inl rfl
    · exact Or.inr rfl
  have hx : P.hCas < P.hMach ∧ P.hMach < 11000 ∧ P.hMach < P.hCr := by
    rw [e12, hv, e11]
    rcases hmc with hm | hm <;> rw [hm]
    · have := F.climb climbConstMach (by simp)
      exact ⟨this.1, this.2.1, by linarith [this.2.2]⟩
    · have := F.climb cruiseMach (by simp)
      exact ⟨this.1, this.2.1, by linarith [this.2.2]⟩
  have hm5 : 0.5 ≤ P.mach := by
    rcases hmc with hm | hm <;> rw [hm]
    · exact F.mach
    · exact F.kmach.1
  have hcas : 3000 ≤ P.hCas := by rw [e11]; exact F.hCas
  refine ⟨⟨hdt.1, e2 ▸ F.aTof.1, e7 ▸ F.ic.1, e8 ▸ F.pre.1, e9 ▸ F.con.1, e10 ▸ F.com.1,
    by linarith⟩, ⟨?_, ?_, ?_, ?_, ?_, ?_, ?_⟩, e12, hv, hmc, ?_⟩
  · rw [hv]; linarith [F.cas]
  · linarith
  · linarith
  · exact hx.1.le
  · exact hx.2.1.le
  · rw [e3]; linarith [F.vTof.2.1]
  · rw [hv, e3, e2]
    have h1 := F.vTof.2.1
    have h2 := F.cas
    have h3 : wreal (look f.wrap takeoffAcceleration).opt * P.dt ≤ 2.5 * 10 :=
      mul_le_mul F.aTof.2 hdt.2 hdt.1.le (by norm_num)
    linarith
  · have hl : P.level = P.hCr := by
      unfold ClimbParams.level
      rw [max_eq_left hx.2.2.le, max_eq_left]
      refine max_le (by linarith) ?_
      rw [ft_val]
      linarith
    have hmx : P.vsMax ≤ 15 := by
      unfold ClimbParams.vsMax
      rw [e7, e8, e9, e10]
      exact max_le (max_le F.ic.2 F.pre.2) (max_le F.con.2 F.com.2)
    have : P.vsMax * P.dt ≤ 15 * 10 := by
      refine (mul_le_mul_of_nonneg_right hmx hdt.1.le).trans ?_
      linarith
    rw [hl]
    linarith

theorem descent_schedule {f : FlightGen G} (hw : tableOk f.wrap = true)
    (hs : scheduleOk f.wrap = true) {kw : Kw} {P : DescentParams} {g : G}
    (hr : kw.random.getD false = false) (hc : kw.casDe = none)
    (hm : kw.machDe = none ∨ kw.machDe = some (wreal (look f.wrap cruiseMach).opt))
    (ha : kw.altCr = none ∨
      kw.altCr = some (roundHundreds (wreal (look f.wrap cruiseAlt).opt * 1000 / ft)))
    (hd : ∀ d, kw.dt = some d → 0 < d ∧ d ≤ 10) (h : descentSetup R f kw = .ok (P, g)) :
    P.Valid ∧ P.Ordered ∧ P.hMach = crossoverAlt np P.vcas P.mach 0 ∧
    P.vcas = wreal (look f.wrap descentConstVcas).opt ∧
    (P.mach = wreal (look f.wrap descentConstMach).opt ∨
      P.mach = wreal (look f.wrap cruiseMach).opt) ∧
    P.hCr ≤ wreal (look f.wrap cruiseAlt).opt * 1000 + 15.3 := by
  have F := table_facts hw hs
  obtain ⟨e1, e2, e3, e4, e5, e6, e7, e8, e9, e10, e12, hcas⟩ := descent_default hw hr hc h
  have hn := abs_le.1 (level_near ha)
  rw [← e6] at hn
  have hdt : 0 < P.dt ∧ P.dt ≤ 10 := by
    rw [e1]
    exact getD_cases (p := fun x => 0 < x ∧ x ≤ 10) hd ⟨by norm_num, by norm_num⟩
  have hk : (0:ℝ) < kts := by unfold kts; norm_num
  have hv : P.vcas = wreal (look f.wrap descentConstVcas).opt := by
    rw [e4, div_mul_cancel₀ _ hk.ne']
  have hmc : P.mach = wreal (look f.wrap descentConstMach).opt ∨
      P.mach = wreal (look f.wrap cruiseMach).opt := by
    rw [e5]
    rcases hm with hm | hm <;> rw [hm]
    · exact Or.inl rfl
    · exact Or.inr rfl
  have hx : 0 < P.hMach ∧ P.hMach < 11000 ∧ P.hMach < P.hCr := by
    rw [e12, hv]
    rcases hmc with hm | hm <;> rw [hm]
    · have := F.descent descentConstMach (by simp)
      exact ⟨this.1, this.2.1, by linarith [this.2.2]⟩
    · have := F.descent cruiseMach (by simp)
      exact ⟨this.1, this.2.1, by linarith [this.2.2]⟩
  have hm5 : 0.5 ≤ P.mach ∧ P.mach ≤ 0.9 := by
    rcases hmc with hm | hm <;> rw [hm]
    · exact F.dmach
    · exact F.kmach
  have rate : ∀ {x b : ℝ}, x < 0 → -b ≤ x → -x * P.mach ≤ b * 0.9 := by
    intro x b h1 h2
    exact mul_le_mul (by linarith) hm5.2 (by linarith) (by linarith)
  have hal := F.aLnd
  refine ⟨⟨hdt.1, by rw [e2]; linarith, e7 ▸ F.dcom.1, e8 ▸ F.dcon.1, e9 ▸ F.dpost.1, e10 ▸ F.dfa.1,
    hcas, hx.1.le, by linarith⟩, ⟨?_, ?_, hx.2.2.le, hx.2.1.le, ?_, ?_, ?_, ?_, ?_, ?_, ?_⟩, e12, hv,
    hmc, by linarith⟩
  · rw [hv]; linarith [F.dcas]
  · linarith
  · rw [hv, e3]; linarith [F.dcas, F.vApp.2]
  · rw [e2]; exact hal
  · rw [e3]; linarith [F.vApp.1]
  · rw [e7]; exact (rate F.dcom.1 F.dcom.2).trans (by norm_num)
  · rw [e8]; exact (rate F.dcon.1 F.dcon.2).trans (by norm_num)
  · rw [e9]; exact (rate F.dpost.1 F.dpost.2).trans (by norm_num)
  · rw [e10]; exact (rate F.dfa.1 F.dfa.2).trans (by norm_num)

/-- Limits of an aircraft from the constants of its table. -/
theorem limits_of {a : AircraftRow} {w : List WrapRow} (hl : limitsOk a w = true) {v h c m : ℝ}
    (hc : c = wreal (look w climbConstVcas).opt ∨ c = wreal (look w descentConstVcas).opt)
    (hm : m = wreal (look w climbConstMach).opt ∨ m = wreal (look w descentConstMach).opt ∨
      m = wreal (look w cruiseMach).opt)
    (hw : Within c m v h) (hh : h ≤ wreal (look w cruiseAlt).opt * 1000 + 165.3) :
    InLimits a v h := by
  simp only [limitsOk, Bool.and_eq_true] at hl
  obtain ⟨⟨h1, h2⟩, h3⟩ := hl
  refine ⟨?_, ?_, ?_⟩
  · intro l e
    rw [e] at h1
    have h1 := of_decide_eq_true h1
    refine hw.2.trans ?_
    have key : ∀ x : ℤ, 10002 * x * 10 ^ 8 ≤ (l : ℤ) → 1.0002 * wreal x ≤ real l := by
      intro x hx
      have : (10002 * (x:ℝ) * 10 ^ 8) ≤ l := by exact_mod_cast hx
      unfold wreal real
      rw [le_div_iff₀ (by positivity)]
      norm_num at *
      linarith
    rcases hm with rfl | rfl | rfl
    · exact key _ h1.1
    · exact key _ h1.2.1
    · exact key _ h1.2.2
  · intro l e
    rw [e] at h2
    have h2 := of_decide_eq_true h2
    refine hw.1.trans ?_
    have key : ∀ x : ℤ, 100001 * x * 10 ^ 13 ≤ (l : ℤ) * 514444 →
        1.00001 * wreal x ≤ real l * 0.514444 := by
      intro x hx
      have : (100001 * (x:ℝ) * 10 ^ 13) ≤ l * 514444 := by exact_mod_cast hx
      unfold wreal real
      rw [div_mul_eq_mul_div, le_div_iff₀ (by positivity)]
      norm_num at *
      linarith
    rcases hc with rfl | rfl
    · exact key _ h2.1
    · exact key _ h2.2
  · intro l e
    rw [e] at h3
    have h3 := of_decide_eq_true h3
    refine hh.trans ?_
    have : ((((look w cruiseAlt).opt : ℝ) + 153 + 1500) * 10 ^ 15) ≤ l := by exact_mod_cast h3
    unfold wreal real
    rw [le_div_iff₀ (by positivity)]
    norm_num at *
    linarith

/-! ## Rows -/

theorem climb_limits {f f' : FlightGen G} (hw : tableOk f.wrap = true)
    (hs : scheduleOk f.wrap = true) (hn : f.noise = false) {a : AircraftRow}
    (hl : limitsOk a f.wrap = true) {kw : Kw} {fr : ClimbFrame}
    (hr : kw.random.getD false = false) (hc : kw.casCl = none)
    (hm : kw.machCl = none ∨ kw.machCl = some (wreal (look f.wrap cruiseMach).opt))
    (ha : kw.altCr = none ∨
      kw.altCr = some (roundHundreds (wreal (look f.wrap cruiseAlt).opt * 1000 / ft)))
    (hd : ∀ d, kw.dt = some d → 0 < d ∧ d ≤ 10) (h : ClimbReturns R f kw fr f') :
    ∀ x ∈ fr.rows, InLimits a x.v x.h := by
  obtain ⟨P, g, ss, h1, h2, rfl, -⟩ := climbReturns_iff.1 h
  obtain ⟨p1, p2, p3, p4, p5, p6⟩ := climb_schedule hw hs hr hc hm ha hd h1
  have hx := climb_within p1 p2 p3 h2
  rw [addNoise_off hn]
  intro y hy
  simp only [List.map_map, List.mem_map, Function.comp] at hy
  obtain ⟨x, hm, rfl⟩ := hy
  have := hx x hm
  refine limits_of hl (Or.inl p4) (p5.imp_right Or.inr) this.within ?_
  exact this.inv.top.le.trans p6

theorem descent_limits {f f' : FlightGen G} (hw : tableOk f.wrap = true)
    (hs : scheduleOk f.wrap = true) (hn : f.noise = false) {a : AircraftRow}
    (hl : limitsOk a f.wrap = true) {kw : Kw} {fr : DescentFrame}
    (hr : kw.random.getD false = false) (hc : kw.casDe = none)
    (hm : kw.machDe = none ∨ kw.machDe = some (wreal (look f.wrap cruiseMach).opt))
    (ha : kw.altCr = none ∨
      kw.altCr = some (roundHundreds (wreal (look f.wrap cruiseAlt).opt * 1000 / ft)))
    (hd : ∀ d, kw.dt = some d → 0 < d ∧ d ≤ 10) (h : DescentReturns R f kw fr f') :
    ∀ x ∈ fr.rows, InLimits a x.v x.h := by
  obtain ⟨P, g, ss, h1, h2, rfl, -⟩ := descentReturns_iff.1 h
  obtain ⟨p1, p2, p3, p4, p5, p6⟩ := descent_schedule hw hs hr hc hm ha hd h1
  have hx := descent_within p1 p2 p3 h2
  rw [addNoise_off hn]
  intro y hy
  simp only [List.mem_map] at hy
  obtain ⟨x, hm, rfl⟩ := hy
  have := hx x hm
  refine limits_of hl (Or.inr p4) (Or.inr p5) this.within ?_
  have := this.inv.h_le
  show x.h ≤ _
  linarith

theorem cruise_rows {f f' : FlightGen G} (hw : tableOk f.wrap = true) (hn : f.noise = false)
    {kw : Kw} {fr : CruiseFrame} (hr : kw.random.getD false = false) (hm : kw.machCr = none)
    (ha : kw.altCr = none) (h : CruiseReturns R f kw fr f') :
    fr.params.mach = wreal (look f.wrap cruiseMach).opt ∧
    fr.params.alt = roundHundreds (wreal (look f.wrap cruiseAlt).opt * 1000 / ft) ∧
    f'.wrap = f.wrap ∧ f'.noise = false ∧
    |fr.params.alt * ft - wreal (look f.wrap cruiseAlt).opt * 1000| ≤ 15.24 ∧
    ∀ x ∈ fr.rows, x.h = fr.params.alt * ft ∧
      x.v = mach2tas np (wreal (look f.wrap cruiseMach).opt) x.h 0 := by
  obtain ⟨P, g, ss, h1, h2, rfl, rfl⟩ := cruiseReturns_iff.1 h
  obtain ⟨p1, p2, p3⟩ := cruise_default hw hr h1
  rw [hm, Option.getD_none] at p1
  have near := level_near (w := f.wrap) (o := kw.altCr) (Or.inl ha)
  rw [← p2] at near
  rw [ha, Option.getD_none] at p2
  refine ⟨p1, p2, rfl, hn, near, ?_⟩
  rw [addNoise_off hn]
  intro y hy
  simp only [List.mem_map] at hy
  obtain ⟨x, hm, rfl⟩ := hy
  obtain ⟨q1, q2, -⟩ := cruise_trace_const h2 x hm
  have q2 : x.h = P.hCr := q2
  have q1 : x.v = mach2tas np P.mach P.hCr 0 := q1
  refine ⟨q2.trans p3, ?_⟩
  show x.v = mach2tas np _ x.h 0
  rw [q1, q2, p1]

theorem cruise_limits {f f' : FlightGen G} (hw : tableOk f.wrap = true)
    (hs : scheduleOk f.wrap = true) (hn : f.noise = false) {a : AircraftRow}
    (hl : limitsOk a f.wrap = true) {kw : Kw} {fr : CruiseFrame}
    (hr : kw.random.getD false = false) (hm : kw.machCr = none) (ha : kw.altCr = none)
    (h : CruiseReturns R f kw fr f') : ∀ x ∈ fr.rows, InLimits a x.v x.h := by
  have F := table_facts hw hs
  obtain ⟨-, -, -, -, near, rows⟩ := cruise_rows hw hn hr hm ha h
  have near := abs_le.1 near
  intro x hx
  obtain ⟨e1, e2⟩ := rows x hx
  have hk := F.kmach.1
  have hv : 0 ≤ x.v := e2 ▸ mach2tas_nonneg (by linarith) _
  have hM : tas2mach np x.v x.h 0 = wreal (look f.wrap cruiseMach).opt := by
    rw [e2]; exact tas2mach_mach2tas _ _
  obtain ⟨k1, k2, k3⟩ := F.climb cruiseMach (by simp)
  refine limits_of hl (Or.inl rfl) (Or.inr (Or.inr rfl)) ⟨?_, ?_⟩ (by rw [e1]; linarith)
  · refine cas_of_mach hv (by linarith [F.cas]) (by linarith) ?_ k2.le ?_ hM.le
    · linarith [F.hCas]
    · rw [e1]; linarith
  · rw [hM]; linarith

theorem offset_row {P : ℝ → ℝ → Prop} {cl cr de : List OutRow} (h1 : ∀ x ∈ cl, P x.v x.h)
    (h2 : ∀ x ∈ cr, P x.v x.h) (h3 : ∀ x ∈ de, P x.v x.h) :
    ∀ x ∈ joinParts cl cr de, P x.v x.h := by
  intro x hx
  simp only [joinParts, List.mem_append, List.mem_map] at hx
  rcases hx with (⟨y, hy, rfl⟩ | ⟨y, hy, rfl⟩) | ⟨y, hy, rfl⟩
  · exact h1 y hy
  · exact h2 y hy
  · exact h3 y hy

theorem complete_limits {f f' : FlightGen G} (hw : tableOk f.wrap = true)
    (hs : scheduleOk f.wrap = true) (hn : f.noise = false) {a : AircraftRow}
    (hl : limitsOk a f.wrap = true) {kw : Kw} {rows : List OutRow} (hk : kw.Default)
    (h : CompleteReturns R f kw rows f') : ∀ x ∈ rows, InLimits a x.v x.h := by
  obtain ⟨-, -, cr, f1, cl, f2, de, c1, c2, c3, rfl⟩ := completeReturns_iff.1 h
  have hr : kw.random.getD false = false := by
    have := hk.random
    rcases hq : kw.random with _ | _ | _ <;> simp_all
  obtain ⟨m1, a1, w1, n1, -, -⟩ := cruise_rows hw hn hr hk.machCr hk.altCr c1
  have hp : passAlt kw cr.params.alt = { kw with altCr := some cr.params.alt } := by
    unfold passAlt
    rw [hk.altCr]
    rfl
  rw [hp] at c2 c3
  obtain ⟨P, g, ss, -, -, -, e2⟩ := climbReturns_iff.1 c2
  have w2 : f2.wrap = f.wrap := by rw [e2]; exact w1
  have n2 : f2.noise = false := by rw [e2]; exact n1
  refine offset_row ?_ (cruise_limits hw hs hn hl hr hk.machCr hk.altCr c1) ?_
  · refine climb_limits (by rwa [w1]) (by rwa [w1]) n1 (by rwa [w1]) (kw := { kw with
      altCr := some cr.params.alt, machCl := some cr.params.mach }) hr hk.casCl ?_ ?_ hk.dt c2
    · rw [w1]; exact Or.inr (congrArg some m1)
    · rw [w1]; exact Or.inr (congrArg some a1)
  · refine descent_limits (by rwa [w2]) (by rwa [w2]) n2 (by rwa [w2]) (kw := { kw with
      altCr := some cr.params.alt, machDe := some cr.params.mach }) hr hk.casDe ?_ ?_ hk.dt c3
    · rw [w2]; exact Or.inr (congrArg some m1)
    · rw [w2]; exact Or.inr (congrArg some a1)

/-- The generator of an offered code, with the checks of its table. -/
theorem init_schedule {ac : Str} (hac : ac ∈ availableAircraft shipped true) (seed : G) :
    ∃ f a, Gen.init shipped ac seed true = .ok f ∧ Registry.aircraft shipped ac true = .ok a ∧
      tableOk f.wrap = true ∧ scheduleOk f.wrap = true ∧
      (ac ∉ smallJets → limitsOk a f.wrap = true) ∧ f.noise = false := by
  obtain ⟨f, h1, h2, h3, -⟩ := init_shipped hac seed
  have := List.all_eq_true.1 shipped_limits ac hac
  unfold Gen.init at this h1
  simp only [bind, Except.bind, pure, Except.pure] at this h1
  rcases e1 : Registry.aircraft shipped ac true with e | a
  · rw [e1] at this; simp at this
  · rw [e1] at this h1
    rcases e2 : Construct.wrap shipped ac (some true) with e | w
    · rw [e2] at this; simp at this
    · rw [e2] at this h1
      simp only [Bool.and_eq_true, Bool.or_eq_true, decide_eq_true_eq, List.any_eq_true,
        beq_iff_eq] at this
      obtain ⟨l, e, he, hw⟩ := this
      simp only [Except.ok.injEq] at h1
      subst h1
      refine ⟨_, a, ?_, rfl, h2, ?_, fun hj => l.resolve_left hj, h3⟩
      · unfold Gen.init
        simp only [bind, Except.bind, pure, Except.pure, e1, e2]
      · show scheduleOk w = true
        rw [← hw]
        exact List.all_eq_true.1 shipped_schedules e he

theorem init_limits {ac : Str} (hac : ac ∈ availableAircraft shipped true)
    (hj : ac ∉ smallJets) (seed : G) :
    ∃ f a, Gen.init shipped ac seed true = .ok f ∧ Registry.aircraft shipped ac true = .ok a ∧
      tableOk f.wrap = true ∧ scheduleOk f.wrap = true ∧ limitsOk a f.wrap = true ∧
      f.noise = false := by
  obtain ⟨f, a, h1, h2, h3, h4, h5, h6⟩ := init_schedule hac seed
  exact ⟨f, a, h1, h2, h3, h4, h5 hj, h6⟩

/-- The five business jets: the constants of their table exceed their limits. -/
theorem shipped_jets : smallJets.all (fun ac =>
    decide (ac ∈ availableAircraft shipped true) &&
    match Gen.init shipped ac () true, Registry.aircraft shipped ac true with
    | .ok f, .ok a => decide (a.mmo = some 7000000000000000 ∧ a.vmo = some 2700000000000000000 ∧
        7400 ≤ (look f.wrap climbConstMach).opt ∧ 7400 ≤ (look f.wrap descentConstMach).opt ∧
        7400 ≤ (look f.wrap cruiseMach).opt ∧
        (look f.wrap takeoffSpeed).opt ≤ (look f.wrap climbConstVcas).opt ∧
        1395000 ≤ (look f.wrap climbConstVcas).opt ∧ 1395000 ≤ (look f.wrap descentConstVcas).opt)
    | _, _ => false) = true := by
  decide +kernel

theorem init_jets {ac : Str} (hac : ac ∈ smallJets) (seed : G) :
    ∃ f a, ac ∈ availableAircraft shipped true ∧ Gen.init shipped ac seed true = .ok f ∧
      Registry.aircraft shipped ac true = .ok a ∧ tableOk f.wrap = true ∧ f.noise = false ∧
      a.mmo = some 7000000000000000 ∧ a.vmo = some 2700000000000000000 ∧
      7400 ≤ (look f.wrap descentConstMach).opt ∧ 7400 ≤ (look f.wrap cruiseMach).opt ∧
      1395000 ≤ (look f.wrap climbConstVcas).opt ∧
      1395000 ≤ (look f.wrap descentConstVcas).opt := by
  have key := List.all_eq_true.1 shipped_jets _ hac
  simp only [Bool.and_eq_true, decide_eq_true_eq] at key
  obtain ⟨hav, key⟩ := key
  obtain ⟨f, h1, h2, h3, -⟩ := init_shipped hav seed
  unfold Gen.init at key h1
  simp only [bind, Except.bind, pure, Except.pure] at key h1
  rcases e1 : Registry.aircraft shipped ac true with e | a
  · rw [e1] at key; simp at key
  rw [e1] at key h1
  rcases e2 : Construct.wrap shipped ac (some true) with e | w
  · rw [e2] at key; simp at key
  rw [e2] at key h1
  simp only [decide_eq_true_eq] at key
  obtain ⟨k1, k2, -, k4, k5, -, k7, k8⟩ := key
  simp only [Except.ok.injEq] at h1
  subst h1
  refine ⟨_, a, hav, ?_, rfl, h2, h3, k1, k2, k4, k5, k7, k8⟩
  unfold Gen.init
  simp only [bind, Except.bind, pure, Except.pure, e1, e2]

end
end Verif.Gen
