import Verif.Lemmas.GenFloatSetup

/-!
# C150: default flights of the shipped types, from the table to the end of the loop
-/

namespace Verif.Props
open Verif Verif.Gen Verif.GenLoop Verif.Tables Verif.Kinematic Verif.Registry Verif.Aero
open Verif.Data (shipped)

variable {G : Type}

/-- In exact arithmetic the setups are those of `climb`, `descent` and `cruise`. -/
theorem C150_setup_exact (R : Rng G) (f : FlightGen G) (kw : Kw) (hr : kw.random.getD false = false) :
    climbParams np wreal roundHundreds f.wrap (keys kw) =
      (climbSetup R f kw).map (fun q => looped q.1) ∧
    descentParams np wreal roundHundreds f.wrap (keys kw) =
      (descentSetup R f kw).map (fun q => loopedDescent q.1) ∧
    cruiseParams wreal roundHundreds f.wrap (keys kw) =
      (cruiseSetup R f kw).map (fun q => loopedCruise q.1) :=
  ⟨climbParams_np hr, descentParams_np hr, cruiseParams_np hr⟩

/-- A generator that always returns one half. -/
private noncomputable def half (G : Type) : Rng G := ⟨fun g => (1 / 2, g), fun n g => (List.replicate n 0, g)⟩

private theorem half_unit : (half G).Unit := by
  intro g
  show (0:ℝ) ≤ 1 / 2 ∧ (1 / 2 : ℝ) ≤ 1
  norm_num

private theorem init_reads {ac : Str} (hac : ac ∈ availableAircraft shipped true) (seed : G) :
    ∃ f, Gen.init shipped ac seed true = .ok f ∧ tableOk f.wrap = true ∧
      scheduleOk f.wrap = true ∧ sizeOk f.wrap = true ∧ readOk f.wrap = true := by
  obtain ⟨f, h1, h2, h3, h4⟩ := init_sizes hac seed
  refine ⟨f, h1, h2, h3, h4, ?_⟩
  have := List.all_eq_true.1 shipped_reads ac hac
  unfold Gen.init at this h1
  simp only [bind, Except.bind, pure, Except.pure] at this h1
  rcases e1 : Registry.aircraft shipped ac true with e | a
  · rw [e1] at this; simp at this
  · rw [e1] at this h1
    rcases e2 : Construct.wrap shipped ac (some true) with e | w
    · rw [e2] at this; simp at this
    · rw [e2] at this h1
      simp only [Except.ok.injEq] at h1
      rw [← h1]
      exact this

private theorem read_of {w : List WrapRow} (h : readOk w = true) {v : Str} (hv : v ∈ readVars) :
    (look w v).opt.natAbs ≤ 1000000000 := by
  simp only [readOk, Bool.and_eq_true] at h
  exact of_decide_eq_true (List.all_eq_true.1 h.1 v hv)

private theorem near_refl (x : ℝ) : Near x x := by
  unfold Near
  rw [sub_self, abs_zero]
  positivity

private theorem near_of_ap {n x y : ℝ} {L : ℕ} (h : Ap Format.binary64.u n L x y) (hn : 0 ≤ n)
    (hn' : n ≤ 1000) : Near x y := by
  have hu := Format.u_pos .binary64
  have hu2 := Format.u64_le
  have := h.rel hn hu.le (by nlinarith)
  unfold Near
  rw [abs_of_pos h.pos]
  refine this.trans ?_
  have hp := h.pos
  calc 1.01 * n * Format.binary64.u * y ≤ 1.01 * 1000 * Format.binary64.u * y := by gcongr
    _ ≤ 1 / 100 * y := mul_le_mul_of_nonneg_right (by linarith) hp.le
    _ = _ := by ring

private theorem one_step (M : Machine .binary64) (d : Option ℝ) :
    (d.map (Fl.mk (M := M))).getD 1.0 = ⟨d.getD 1⟩ := by
  cases d with
  | some x => rfl
  | none =>
    show (⟨M.rnd 1.0⟩ : Fl M) = ⟨1⟩
    rw [rnd_1 M Format.binary64_wide]

/-- The default climb of every shipped type, set up and run in double precision, ends. -/
theorem C150_climb_default (M : Machine .binary64) {num : ℤ → Fl M} (hnum : Reads M num) (ac : Str)
    (hac : ac ∈ availableAircraft shipped true) (seed : G) :
    ∃ f, Gen.init shipped ac seed true = .ok f ∧
      ∀ d : Option ℝ, (∀ x, d = some x → 0.002 ≤ x ∧ x ≤ 59) →
        ∃ P : Climb ℝ,
          climbParams (flt M) num flRound2 f.wrap { dt := d.map Fl.mk } = .ok (P.on M) ∧
          P.Ordinary ∧ ∃ rows, ClimbEnds M P rows := by
  obtain ⟨f, h1, h2, h3, h4, h5⟩ := init_reads hac seed
  obtain ⟨f', h1', hQ⟩ := C150_climb_shipped (R := half G) M ac hac seed half_unit
  rw [h1] at h1'
  cases h1'
  refine ⟨f, h1, fun d hd => ?_⟩
  obtain ⟨Q, g, hs, hP⟩ := hQ d hd
  obtain ⟨e1, e2, e3, e4, e5, e6, e7, e8, e9, e10, e11, e12⟩ := climb_default h2 rfl rfl hs
  have F := table_facts h2 h3
  have hr := fun {v} => read_of h5 (v := v)
  unfold sizeOk at h4
  simp only [Bool.and_eq_true, decide_eq_true_eq] at h4
  obtain ⟨⟨-, s2, -, -, -, -, s7, s8, s9⟩, -⟩ := h4
  have w2 : wreal 3900000 = 390 := by unfold wreal; norm_num
  have w7 : wreal 10000 = 1 := by unfold wreal; norm_num
  have w9 : wreal 140000 = 14 := by unfold wreal; norm_num
  have t2 := w2 ▸ wreal_le s2
  have t7 := w7 ▸ wreal_le s7
  have t9 := w9 ▸ wreal_le s9
  have hk : (0:ℝ) < kts := by unfold kts; norm_num
  rw [max_eq_left (div_le_div_of_nonneg_right F.vTof.2.2 hk.le), div_mul_cancel₀ _ hk.ne'] at e4
  simp only [Option.getD_none] at e5 e6
  obtain ⟨v1, v2⟩ := ap_vcas hnum (hr (by simp [readVars])) F.cas t2
  have v3 := ap_mach hnum (hr (by simp [readVars])) F.mach t7
  have v4 : (flt M).maximum (num (look f.wrap climbConstVcas).opt / kts)
      (num (look f.wrap takeoffSpeed).opt / kts) = num (look f.wrap climbConstVcas).opt / kts := by
    have a := num_err hnum (hr (v := takeoffSpeed) (by simp [readVars]))
    rw [abs_of_nonneg F.vTof.1] at a
    have a2 := F.vTof.2.1
    obtain ⟨al, au⟩ := abs_le.1 a
    have k1 := abs_rnd64 M (x := 0.514444) (by rw [abs_of_pos (by norm_num)]; norm_num)
    rw [abs_of_pos (show (0:ℝ) < 0.514444 by norm_num)] at k1
    obtain ⟨kl, ku⟩ := abs_le.1 k1
    have b0 : 0 ≤ (num (look f.wrap takeoffSpeed).opt).val := by linarith [F.vTof.1]
    have b1 : (num (look f.wrap takeoffSpeed).opt).val / M.rnd 0.514444 ≤ 200 := by
      rw [div_le_iff₀ (by linarith)]; linarith
    have b2 : 0 ≤ (num (look f.wrap takeoffSpeed).opt).val / M.rnd 0.514444 :=
      div_nonneg b0 (by linarith)
    have c1 := abs_rnd64 M (x := (num (look f.wrap takeoffSpeed).opt).val / M.rnd 0.514444)
      (abs_le.2 ⟨by linarith, by linarith⟩)
    rw [abs_of_nonneg b2] at c1
    obtain ⟨-, cu⟩ := abs_le.1 c1
    show (⟨max _ _⟩ : Fl M) = _
    rw [max_eq_left]
    refine le_trans ?_ v2
    show M.rnd ((num (look f.wrap takeoffSpeed).opt).val / M.rnd 0.514444) ≤ 250
    linarith
  have hx := F.climb climbConstMach (by simp)
  obtain ⟨L1, L2⟩ := near_level hnum (hr (v := cruiseAlt) (by simp [readVars])) F.alt (by linarith)
  have X := near_cross v1 v3 F.cas t2 F.mach t7 (by linarith [hx.1, F.hCas])
  refine ⟨⟨d.getD 1, (num (look f.wrap takeoffAcceleration).opt).val,
    (num (look f.wrap takeoffSpeed).opt).val, (num (look f.wrap climbConstMach).opt).val,
    (num (look f.wrap climbConstVcas).opt / kts * kts).val,
    (flRound2 (M := M) (num (look f.wrap cruiseAlt).opt * 1000.0 / ft) * ft).val,
    (num (look f.wrap initclimbVs).opt).val, (num (look f.wrap climbVsPreConcas).opt).val,
    (num (look f.wrap climbVsConcas).opt).val, (num (look f.wrap climbVsConmach).opt).val,
    (num (look f.wrap climbCrossAltConcas).opt * 1000.0).val,
    (crossoverAlt (flt M) (num (look f.wrap climbConstVcas).opt / kts * kts)
      (num (look f.wrap climbConstMach).opt) 0.0).val⟩, ?_, ?_⟩
  rotate_left
  · refine hP _ ⟨?_, ?_, ?_, ?_, ?_, ?_, ?_, ?_, ?_, ?_, ?_, ?_⟩ ?_
    · exact e1 ▸ near_refl _
    · exact e2 ▸ near_num hnum (hr (v := takeoffAcceleration) (by simp [readVars]))
    · exact e3 ▸ near_num hnum (hr (v := takeoffSpeed) (by simp [readVars]))
    · exact e5 ▸ near_num hnum (hr (v := climbConstMach) (by simp [readVars]))
    · exact e4 ▸ near_of_ap v1 (by norm_num) (by norm_num)
    · exact e6 ▸ L1
    · exact e7 ▸ near_num hnum (hr (v := initclimbVs) (by simp [readVars]))
    · exact e8 ▸ near_num hnum (hr (v := climbVsPreConcas) (by simp [readVars]))
    · exact e9 ▸ near_num hnum (hr (v := climbVsConcas) (by simp [readVars]))
    · exact e10 ▸ near_num hnum (hr (v := climbVsConmach) (by simp [readVars]))
    · exact e11 ▸ near_metres hnum (hr (v := climbCrossAltConcas) (by simp [readVars]))
    · rw [e12, e4, e5]; exact X
    · exact (hnum _ (by
        rw [Int.abs_eq_natAbs]
        have := hr (v := takeoffSpeed) (by simp [readVars])
        exact le_trans (by exact_mod_cast this) (by norm_num : (1000000000 : ℤ) ≤ 10 ^ 12))).1
  · rw [climbParams_eq (flt M) num flRound2 h2, one_step, v4]
    rfl

/-- The default descent of every shipped type likewise. -/
theorem C150_descent_default (M : Machine .binary64) {num : ℤ → Fl M} (hnum : Reads M num) (ac : Str)
    (hac : ac ∈ availableAircraft shipped true) (seed : G) :
    ∃ f, Gen.init shipped ac seed true = .ok f ∧
      ∀ (d : Option ℝ) (w : Option Bool), (∀ x, d = some x → 0.002 ≤ x ∧ x ≤ 59) →
        ∃ P : Descent ℝ,
          descentParams (flt M) num flRound2 f.wrap { dt := d.map Fl.mk, withcr := w } =
            .ok (P.on M) ∧
          P.Ordinary ∧ ∃ rows, DescentEnds M P rows := by
  obtain ⟨f, h1, h2, h3, h4, h5⟩ := init_reads hac seed
  obtain ⟨f', h1', hQ⟩ := C150_descent_shipped (R := half G) M ac hac seed half_unit
  rw [h1] at h1'
  cases h1'
  refine ⟨f, h1, fun d w hd => ?_⟩
  obtain ⟨Q, g, hs, hP⟩ := hQ d w hd
  have hN := descentParams_np (R := half G) (f := f) (kw := { dt := d, withcr := w }) rfl
  rw [hs] at hN
  have hN2 := descentParams_eq np wreal roundHundreds h2 d w
  have hN3 : loopedDescent Q = _ := Except.ok.inj (hN.symm.trans hN2)
  have ewc : Q.withcr = w.getD true := congrArg Descent.withcr hN3
  have ehc : Q.hCas = wreal (look f.wrap descentCrossAltConcas).opt * 1000.0 :=
    congrArg Descent.hCas hN3
  rw [show (1000.0 : ℝ) = 1000 by norm_num] at ehc
  obtain ⟨e1, e2, e3, e4, e5, e6, e7, e8, e9, e10, e11, -⟩ := descent_default h2 rfl rfl hs
  have F := table_facts h2 h3
  have hr := fun {v} => read_of h5 (v := v)
  unfold sizeOk at h4
  simp only [Bool.and_eq_true, decide_eq_true_eq] at h4
  obtain ⟨⟨-, -, -, -, -, -, -, -, s9⟩, -, s2, -⟩ := h4
  have w2 : wreal 3900000 = 390 := by unfold wreal; norm_num
  have w9 : wreal 140000 = 14 := by unfold wreal; norm_num
  have t2 := w2 ▸ wreal_le s2
  have t9 := w9 ▸ wreal_le s9
  have hk : (0:ℝ) < kts := by unfold kts; norm_num
  rw [div_mul_cancel₀ _ hk.ne'] at e4
  simp only [Option.getD_none] at e5 e6
  have c1 : 130 ≤ wreal (look f.wrap descentConstVcas).opt := by linarith [F.dcas]
  have m2 : wreal (look f.wrap descentConstMach).opt ≤ 1 := by linarith [F.dmach.2]
  obtain ⟨v1, -⟩ := ap_vcas hnum (hr (by simp [readVars])) c1 t2
  have v3 := ap_mach hnum (hr (by simp [readVars])) F.dmach.1 m2
  have hx : 1000 ≤ crossoverAlt np (wreal (look f.wrap descentConstVcas).opt)
      (wreal (look f.wrap descentConstMach).opt) 0 := by
    have hc : crossIn (look f.wrap descentConstVcas).opt (look f.wrap descentConstMach).opt 10000
        (min 110000 ((look f.wrap cruiseAlt).opt - 153)) = true := by
      simp only [readOk, Bool.and_eq_true] at h5
      exact h5.2
    have p1 : 0 < (look f.wrap descentConstVcas).opt := by
      by_contra hc
      have := wreal_le (show (look f.wrap descentConstVcas).opt ≤ 0 by omega)
      rw [show wreal 0 = 0 by unfold wreal; norm_num] at this
      linarith
    have p2 : 1 ≤ (look f.wrap descentConstMach).opt := by
      by_contra hc
      have := wreal_le (show (look f.wrap descentConstMach).opt ≤ 0 by omega)
      rw [show wreal 0 = 0 by unfold wreal; norm_num] at this
      linarith [F.dmach.1]
    have := (cross_facts p1 p2 (by norm_num) hc).1
    unfold wreal at this ⊢
    norm_num at this ⊢
    linarith
  obtain ⟨L1, L2⟩ := near_level hnum (hr (v := cruiseAlt) (by simp [readVars])) F.alt (by linarith)
  have X := near_cross v1 v3 c1 t2 F.dmach.1 m2 hx
  refine ⟨⟨d.getD 1, w.getD true, (num (look f.wrap landingAcceleration).opt).val,
    (num (look f.wrap finalappVcas).opt).val, (num (look f.wrap descentConstMach).opt).val,
    (num (look f.wrap descentConstVcas).opt / kts * kts).val,
    (flRound2 (M := M) (num (look f.wrap cruiseAlt).opt * 1000.0 / ft) * ft).val,
    (num (look f.wrap descentVsConmach).opt).val, (num (look f.wrap descentVsConcas).opt).val,
    (num (look f.wrap descentVsPostConcas).opt).val, (num (look f.wrap finalappVs).opt).val,
    (num (look f.wrap descentCrossAltConcas).opt * 1000.0).val,
    (crossoverAlt (flt M) (num (look f.wrap descentConstVcas).opt / kts * kts)
      (num (look f.wrap descentConstMach).opt) 0.0).val⟩, ?_, ?_⟩
  rotate_left
  · refine hP _ ⟨?_, ?_, ?_, ?_, ?_, ?_, ?_, ?_, ?_, ?_, ?_, ?_, ?_⟩ L2
    · exact e1 ▸ near_refl _
    · exact ewc.symm
    · exact e2 ▸ near_num hnum (hr (v := landingAcceleration) (by simp [readVars]))
    · exact e3 ▸ near_num hnum (hr (v := finalappVcas) (by simp [readVars]))
    · exact e5 ▸ near_num hnum (hr (v := descentConstMach) (by simp [readVars]))
    · exact e4 ▸ near_of_ap v1 (by norm_num) (by norm_num)
    · exact e6 ▸ L1
    · exact e7 ▸ near_num hnum (hr (v := descentVsConmach) (by simp [readVars]))
    · exact e8 ▸ near_num hnum (hr (v := descentVsConcas) (by simp [readVars]))
    · exact e9 ▸ near_num hnum (hr (v := descentVsPostConcas) (by simp [readVars]))
    · exact e10 ▸ near_num hnum (hr (v := finalappVs) (by simp [readVars]))
    · exact ehc ▸ near_metres hnum (hr (v := descentCrossAltConcas) (by simp [readVars]))
    · rw [e11, e4, e5]; exact X
  · rw [descentParams_eq (flt M) num flRound2 h2, one_step]
    rfl

/-- The default cruise of every shipped type likewise. -/
theorem C150_cruise_default (M : Machine .binary64) {num : ℤ → Fl M} (hnum : Reads M num) (ac : Str)
    (hac : ac ∈ availableAircraft shipped true) (seed : G) :
    ∃ f, Gen.init shipped ac seed true = .ok f ∧
      ∀ d : Option ℝ, (∀ x, d = some x → 0.002 ≤ x ∧ x ≤ 59) →
        ∃ P : Cruise ℝ,
          cruiseParams num flRound2 f.wrap { dt := d.map Fl.mk } = .ok (P.on M) ∧
          P.Ordinary ∧ ∃ rows, CruiseEnds M P rows := by
  obtain ⟨f, h1, h2, h3, h4, h5⟩ := init_reads hac seed
  obtain ⟨f', h1', hQ⟩ := C150_cruise_shipped (R := half G) M ac hac seed
  rw [h1] at h1'
  cases h1'
  refine ⟨f, h1, fun d hd => ?_⟩
  obtain ⟨Q, g, hs, hP⟩ := hQ d hd
  have hN := cruiseParams_np (R := half G) (f := f) (kw := { dt := d }) rfl
  rw [hs] at hN
  have hN2 := cruiseParams_eq wreal roundHundreds h2 d
  have hN3 : loopedCruise Q = _ := Except.ok.inj (hN.symm.trans hN2)
  have l3 : (1000.0 : ℝ) = 1000 := by norm_num
  have e1 : Q.dt = d.getD 1 := by
    have := congrArg Cruise.dt hN3
    rw [show (1.0 : ℝ) = 1 by norm_num] at this
    exact this
  have e2 : Q.distance = wreal (look f.wrap cruiseRange).opt * 1000 := by
    have := congrArg Cruise.distance hN3
    rw [l3] at this
    exact this
  have e3 : Q.mach = wreal (look f.wrap cruiseMach).opt := congrArg Cruise.mach hN3
  have e4 : Q.hCr = roundHundreds (wreal (look f.wrap cruiseAlt).opt * 1000 / ft) * ft := by
    have := congrArg Cruise.hCr hN3
    rw [l3] at this
    exact this
  have F := table_facts h2 h3
  have hr := fun {v} => read_of h5 (v := v)
  unfold sizeOk at h4
  simp only [Bool.and_eq_true, decide_eq_true_eq] at h4
  obtain ⟨⟨-, -, -, -, -, -, -, -, s9⟩, -⟩ := h4
  have w9 : wreal 140000 = 14 := by unfold wreal; norm_num
  have t9 := w9 ▸ wreal_le s9
  obtain ⟨L1, L2⟩ := near_level hnum (hr (v := cruiseAlt) (by simp [readVars])) F.alt (by linarith)
  refine ⟨⟨d.getD 1, (num (look f.wrap cruiseRange).opt * 1000.0).val,
    (num (look f.wrap cruiseMach).opt).val,
    (flRound2 (M := M) (num (look f.wrap cruiseAlt).opt * 1000.0 / ft) * ft).val⟩, ?_, ?_⟩
  rotate_left
  · refine hP _ ⟨?_, ?_, ?_, ?_⟩
    · exact e1 ▸ near_refl _
    · exact e2 ▸ near_metres hnum (hr (v := cruiseRange) (by simp [readVars]))
    · exact e3 ▸ near_num hnum (hr (v := cruiseMach) (by simp [readVars]))
    · exact e4 ▸ L1
  · rw [cruiseParams_eq num flRound2 h2, one_step]
    rfl

/-! Case: a reader that returns the nearest number. -/

example (M : Machine .binary64) : Reads M fun z => ⟨M.rnd (wreal z)⟩ := by
  intro z hz
  have hw : |wreal z| ≤ 10 ^ 8 := by
    unfold wreal
    rw [abs_div, abs_of_pos (show (0:ℝ) < 10 ^ 4 by norm_num), div_le_iff₀ (by norm_num)]
    have : |(z : ℝ)| ≤ 10 ^ 12 := by exact_mod_cast hz
    linarith
  refine ⟨M.rnd_repr _ (big_of_huge (by have := huge_ge; linarith)), ?_⟩
  have hu := Format.u_pos .binary64
  by_cases h0 : z = 0
  · have : wreal z = 0 := by rw [h0]; unfold wreal; norm_num
    show |M.rnd (wreal z) - wreal z| ≤ _
    rw [this, M.rnd_zero Format.binary64_wide]
    simp
  · have h1 : 1e-4 ≤ |wreal z| := by
      unfold wreal
      rw [abs_div, abs_of_pos (show (0:ℝ) < 10 ^ 4 by norm_num), le_div_iff₀ (by norm_num)]
      have : (1 : ℝ) ≤ |(z : ℝ)| := by exact_mod_cast Int.one_le_abs h0
      linarith
    refine (M.rnd_rel Format.binary64_wide (hw.trans (by norm_num))
      (le_trans (by norm_num) h1)).trans ?_
    exact mul_le_mul_of_nonneg_right (by linarith) (abs_nonneg _)

end Verif.Props
