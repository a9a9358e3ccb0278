import Verif.Props.Gen
import Verif.Lemmas.GenComplete

/-!
# C55–C57: complete flights and the random stream
-/

namespace Verif.Props
open Verif Verif.Gen Verif.Aero Verif.Tables Verif.Kinematic Verif.Registry
open Verif.Data (shipped)

variable {G : Type} {R : Rng G}

theorem sensible_climb {kw : Kw} (hk : kw.Sensible) {a m : ℝ} (ha : 0 ≤ a) (hm : 0.5 ≤ m) :
    Kw.Sensible { passAlt kw a with machCl := some m } := by
  unfold passAlt
  split_ifs with h
  · exact ⟨hk.dt, by rintro _ ⟨rfl⟩; linarith, hk.casDe, hk.machDe, hk.machCr, hk.altCr⟩
  · exact ⟨hk.dt, by rintro _ ⟨rfl⟩; linarith, hk.casDe, hk.machDe, hk.machCr,
      by rintro _ ⟨rfl⟩; exact ha⟩

theorem sensible_descent {kw : Kw} (hk : kw.Sensible) {a m : ℝ} (ha : 0 ≤ a) (hm : 0.5 ≤ m) :
    Kw.Sensible { passAlt kw a with machDe := some m } := by
  unfold passAlt
  split_ifs with h
  · exact ⟨hk.dt, hk.machCl, hk.casDe, by rintro _ ⟨rfl⟩; exact hm, hk.machCr, hk.altCr⟩
  · exact ⟨hk.dt, hk.machCl, hk.casDe, by rintro _ ⟨rfl⟩; exact hm, hk.machCr,
      by rintro _ ⟨rfl⟩; exact ha⟩

/-- The three calls made by `complete`. -/
theorem three_calls {f : FlightGen G} (hw : tableOk f.wrap = true) (hR : R.Unit) {kw : Kw}
    (hk : kw.Sensible) : ∃ cr f1 cl f2 de f3, CruiseReturns R f kw cr f1 ∧
      ClimbReturns R f1 { passAlt kw cr.params.alt with machCl := some cr.params.mach } cl f2 ∧
      DescentReturns R f2 { passAlt kw cr.params.alt with machDe := some cr.params.mach } de f3 := by
  obtain ⟨P, g, hs, h1, h2, h3⟩ := cruiseSetup_ok hw hR hk
  have hv : 0 < mach2tas np P.mach (P.alt * 0.3048) 0 * P.dt := by
    unfold mach2tas
    have := vsound_pos (P.alt * 0.3048) 0
    have : 0 < P.mach := by linarith
    positivity
  obtain ⟨cr, f1, hcr⟩ := (C53_cruise f kw P g hs _ rfl).1.2 (.inl hv)
  have e : cr.params = P ∧ f1.wrap = f.wrap := by
    obtain ⟨P', g', ss, d1, -, rfl, rfl⟩ := cruiseReturns_iff.1 hcr
    rw [hs] at d1
    obtain ⟨rfl, rfl⟩ : P = P' ∧ g = g' := by simpa using d1
    exact ⟨rfl, rfl⟩
  have hk1 := sensible_climb hk (a := P.alt) (m := P.mach) h3 h2
  have hk2 := sensible_descent hk (a := P.alt) (m := P.mach) h3 h2
  rw [← e.1] at hk1 hk2
  obtain ⟨P1, g1, hs1, hP1, -⟩ := climbSetup_ok (R := R) (f := f1) (by rw [e.2]; exact hw) hR
    hk1.dt hk1.machCl
  obtain ⟨cl, f2, hcl⟩ := climbReturns_of hs1 hP1
  have e2 : f2.wrap = f.wrap := by
    obtain ⟨P', g', ss, -, -, rfl, rfl⟩ := climbReturns_iff.1 hcl
    exact e.2
  obtain ⟨P2, g2, hs2, hP2, -⟩ := descentSetup_ok (R := R) (f := f2) (by rw [e2]; exact hw) hR hk2
  obtain ⟨de, f3, hde⟩ := descentReturns_of hs2 hP2
  exact ⟨cr, f1, cl, f2, de, f3, hcr, hcl, hde⟩

/-- **C55.** `complete` documents `mach_const_cl` and `mach_const_de`, but raises `TypeError`
exactly when one of them is given. Shown for every offered type code and all sensible
arguments, random or not, with or without noise. -/
theorem C55_complete_arguments (ac : Str) (hac : ac ∈ availableAircraft shipped true) (seed : G)
    (hR : R.Unit) :
    ∃ f, Gen.init shipped ac seed true = .ok f ∧ ∀ f', (f' = f ∨ f' = enableNoise f) →
      ∀ g kw, kw.Sensible →
        ((∃ rows f'', CompleteReturns R { f' with rng := g } kw rows f'') ↔
          kw.machCl = none ∧ kw.machDe = none) ∧
        (CompleteRaises R { f' with rng := g } kw .typeError ↔
          kw.machCl.isSome ∨ kw.machDe.isSome) ∧
        (∀ e, CompleteRaises R { f' with rng := g } kw e → e = .typeError) := by
  obtain ⟨f, h1, h2, -⟩ := init_shipped hac seed
  refine ⟨f, h1, ?_⟩
  intro f' hf g kw hk
  have hw : f'.wrap = f.wrap := by rcases hf with rfl | rfl <;> rfl
  obtain ⟨cr, f1, cl, f2, de, f3, hcr, hcl, hde⟩ := three_calls (R := R)
    (f := { f' with rng := g }) (kw := kw) (by rw [← h2, ← hw]) hR hk
  by_cases hm : kw.machCl = none ∧ kw.machDe = none
  · have ret : CompleteReturns R { f' with rng := g } kw (joinParts cl.rows cr.rows de.rows) f3 :=
      completeReturns_iff.2 ⟨hm.1, hm.2, cr, f1, cl, f2, de, hcr, hcl, hde, rfl⟩
    have no : ∀ e, ¬ CompleteRaises R { f' with rng := g } kw e := by
      rintro e ⟨n, h⟩
      obtain ⟨k, hk⟩ := ret
      cases complete_unique h hk
    refine ⟨⟨fun _ => hm, fun _ => ⟨_, _, ret⟩⟩, ⟨fun h => absurd h (no _), ?_⟩,
      fun e h => absurd h (no e)⟩
    rw [hm.1, hm.2]
    simp
  · have raise : CompleteRaises R { f' with rng := g } kw .typeError := by
      obtain ⟨N1, g1⟩ := cruise_large hcr
      obtain ⟨N2, g2⟩ := climb_large hcl
      refine ⟨N1 + N2, ?_⟩
      rw [complete_eq, g1 _ (by omega)]
      simp only
      by_cases hc : kw.machCl.isSome = true
      · rw [if_pos hc]
      · rw [if_neg hc, g2 _ (by omega)]
        have hd : kw.machDe.isSome = true := by
          rw [Option.isSome_iff_ne_none]
          intro hd
          exact hm ⟨by simpa using hc, hd⟩
        simp only [if_pos hd]
    refine ⟨⟨?_, fun h => absurd h hm⟩, ⟨fun _ => ?_, fun _ => raise⟩, ?_⟩
    · rintro ⟨rows, f'', n, h⟩
      obtain ⟨k, hk⟩ := raise
      cases complete_unique h hk
    · by_contra hc
      push Not at hc
      exact hm ⟨by simpa using hc.1, by simpa using hc.2⟩
    · rintro e ⟨n, h⟩
      obtain ⟨k, hk⟩ := raise
      cases complete_unique h hk
      rfl

/-- Consecutive rows: time and distance do not decrease. -/
def Forward (a b : OutRow) : Prop := a.t ≤ b.t ∧ a.s ≤ b.s

theorem forward_of {rows : List OutRow} {dt : ℝ} (hd : 0 ≤ dt)
    (ht : ∀ (i : ℕ) (hi : i < rows.length), rows[i].t = i * dt)
    (hs : rows.IsChain fun a b => a.s ≤ b.s) : rows.IsChain Forward := by
  rw [List.isChain_iff_getElem] at hs ⊢
  intro i hi
  refine ⟨?_, hs i hi⟩
  rw [ht i (by omega), ht (i + 1) hi]
  push_cast
  linarith

theorem forward_offset {rows : List OutRow} (h : rows.IsChain Forward) (t s : ℝ) :
    (rows.map (offset t s)).IsChain Forward := by
  rw [List.isChain_map]
  refine h.imp ?_
  rintro a b ⟨h1, h2⟩
  exact ⟨by simpa [offset, derive] using h1, by simpa [offset, derive] using h2⟩

theorem passAlt_dt (kw : Kw) (a : ℝ) : (passAlt kw a).dt = kw.dt := by
  unfold passAlt; split_ifs <;> rfl

/-- **C56.** For every offered type code, without noise, and all sensible arguments with a time
step of at most 300 s, random or not: a complete flight is a climb, a cruise and a descent; the
cruise starts at the time and distance where the climb ended and the descent where the cruise
ended; along the whole flight time and distance never decrease; the flight starts at time,
distance and altitude zero. -/
theorem C56_complete_continuous (ac : Str) (hac : ac ∈ availableAircraft shipped true) (seed : G)
    (hR : R.Unit) :
    ∃ f, Gen.init shipped ac seed true = .ok f ∧ ∀ g kw, kw.Sensible →
      (∀ d, kw.dt = some d → d ≤ 300) → ∀ rows f', CompleteReturns R { f with rng := g } kw rows f' →
        rows.IsChain Forward ∧
        (∃ x, rows.head? = some x ∧ x.t = 0 ∧ x.s = 0 ∧ x.h = 0) ∧
        ∃ A B C a b b' c, rows = A ++ B ++ C ∧ A.getLast? = some a ∧ B.head? = some b ∧
          B.getLast? = some b' ∧ C.head? = some c ∧
          b.t = a.t ∧ b.s = a.s ∧ c.t = b'.t ∧ c.s = b'.s ∧ c.h = b'.h := by
  obtain ⟨f, h1, hw, hn, -⟩ := init_shipped hac seed
  refine ⟨f, h1, ?_⟩
  intro g kw hk hdt rows f' hret
  obtain ⟨hmc, hmd, cr, f1, cl, f2, de, hcr, hcl, hde, rfl⟩ := completeReturns_iff.1 hret
  -- parameters
  obtain ⟨P, g0, hs, q1, q2, q3⟩ := cruiseSetup_ok (R := R) (f := { f with rng := g }) hw hR hk
  have e : cr.params = P ∧ f1.wrap = f.wrap ∧ f1.noise = f.noise := by
    obtain ⟨P', g', ss, d1, -, rfl, rfl⟩ := cruiseReturns_iff.1 hcr
    rw [hs] at d1
    obtain ⟨rfl, rfl⟩ : P = P' ∧ g0 = g' := by simpa using d1
    exact ⟨rfl, rfl, rfl⟩
  have e2 : f2.wrap = f.wrap ∧ f2.noise = f.noise := by
    obtain ⟨P', g', ss, -, -, rfl, rfl⟩ := climbReturns_iff.1 hcl
    exact e.2
  have hk1 := sensible_climb hk (a := cr.params.alt) (m := cr.params.mach) (by rw [e.1]; exact q3)
    (by rw [e.1]; exact q2)
  have hk2 := sensible_descent hk (a := cr.params.alt) (m := cr.params.mach)
    (by rw [e.1]; exact q3) (by rw [e.1]; exact q2)
  obtain ⟨P1, g1, hs1, hP1, -⟩ := climbSetup_ok (R := R) (f := f1) (by rw [e.2.1]; exact hw) hR
    hk1.dt hk1.machCl
  obtain ⟨P2, g2, hs2, hP2, hm2, hv2⟩ := descentSetup_ok (R := R) (f := f2)
    (by rw [e2.1]; exact hw) hR hk2
  have hd0 : 0 < kw.dt.getD 1 := getD_cases hk.dt one_pos
  have hd3 : kw.dt.getD 1 ≤ 300 := getD_cases (p := fun x => x ≤ 300) hdt (by norm_num)
  -- the parts
  obtain ⟨-, ccl, xcl, hxcl, -⟩ := (C50_climb f1 _ P1 g1 hs1 hP1).2 (by rw [e.2.2, hn]) cl f2 hcl
  obtain ⟨-, ⟨xde, hxde, hh⟩, -, -, cde, -⟩ :=
    (C52_descent f2 _ P2 g2 hs2 hP2).2 (by rw [e2.2, hn]) de f' hde
  have cde := cde (by linarith) (by
    rw [descentSetup_dt hs2]
    simp only [passAlt_dt]
    linarith)
  obtain ⟨k1, k2, -, -⟩ := (C53_cruise { f with rng := g } kw P g0 hs _ rfl).2 hn cr f1 hcr
  have fcl : cl.rows.IsChain Forward := by
    have := (C49_time f1 f2 _).1 cl hcl
    simp only [passAlt_dt] at this
    exact forward_of hd0.le this (ccl.imp fun _ _ h => h.2)
  have fde : de.rows.IsChain Forward := by
    have := (C49_time f2 f' _).2.1 de hde
    simp only [passAlt_dt] at this
    exact forward_of hd0.le this cde
  have hv : 0 < mach2tas np P.mach (P.alt * 0.3048) 0 * P.dt := by
    unfold mach2tas
    have := vsound_pos (P.alt * 0.3048) 0
    have : 0 < P.mach := by linarith
    positivity
  have fcr : cr.rows.IsChain Forward := by
    refine forward_of hd0.le ((C49_time _ f1 kw).2.2 cr hcr) ?_
    rw [List.isChain_iff_getElem]
    intro i hi
    rw [k2 i (by omega), k2 (i + 1) hi]
    push_cast
    linarith
  obtain ⟨ycr, hycr, hycr0⟩ : ∃ x, cr.rows.head? = some x ∧ x.t = 0 ∧ x.s = 0 := by
    obtain ⟨P', g', ss, d1, d2, rfl, rfl⟩ := cruiseReturns_iff.1 hcr
    rw [addNoise_off hn]
    exact ⟨derive (cruiseInit P'), by simp [trace_head d2], rfl, rfl⟩
  obtain ⟨zcr, hzcr⟩ : ∃ x, cr.rows.getLast? = some x := by
    rcases h : cr.rows.getLast? with _ | x
    · rw [List.getLast?_eq_none_iff] at h
      rw [h] at hycr
      cases hycr
    · exact ⟨x, rfl⟩
  obtain ⟨ycl, hycl, hycl0⟩ : ∃ x, cl.rows.head? = some x ∧ x.t = 0 ∧ x.s = 0 ∧ x.h = 0 := by
    obtain ⟨P', g', ss, d1, d2, rfl, rfl⟩ := climbReturns_iff.1 hcl
    rw [addNoise_off (e.2.2.trans hn)]
    exact ⟨derive climbInit.toRow, by simp [trace_head d2], rfl, rfl, rfl⟩
  obtain ⟨xde0t, xde0s⟩ : xde.t = 0 ∧ xde.s = 0 := by
    obtain ⟨P', g', ss, d1, d2, rfl, rfl⟩ := descentReturns_iff.1 hde
    rw [addNoise_off (e2.2.trans hn)] at hxde
    simp only [List.head?_map, trace_head d2, Option.map_some, Option.some.injEq] at hxde
    rw [← hxde]
    exact ⟨rfl, rfl⟩
  have hP2cr : P2.hCr = P.alt * 0.3048 := by
    -- both are rounded from the same request
    have r1 : P2.hCr = P2.alt * 0.3048 ∧ ∀ a, (passAlt kw cr.params.alt).altCr = some a →
        P2.alt = roundHundreds a := by
      have h := hs2
      unfold descentSetup at h
      simp only [bind, Except.bind, pure, Except.pure] at h
      repeat' split at h
      all_goals first
        | (cases h; done)
        | (cases h
           refine ⟨rfl, fun a ha => ?_⟩
           simp only [ha, Option.getD_some])
    have r2 : ∃ a, P.alt = roundHundreds a ∧ ∀ b, kw.altCr = some b → a = b := by
      have h := hs
      unfold cruiseSetup at h
      simp only [bind, Except.bind, pure, Except.pure] at h
      repeat' split at h
      all_goals first
        | (cases h; done)
        | (cases h
           refine ⟨_, rfl, fun b hb => ?_⟩
           simp only [hb, Option.getD_some])
    obtain ⟨a, ha, hb⟩ := r2
    rw [r1.1]
    congr 1
    rcases hkw : kw.altCr with _ | b
    · have : (passAlt kw cr.params.alt).altCr = some P.alt := by
        unfold passAlt
        rw [hkw, e.1]
        rfl
      rw [r1.2 _ this]
      obtain ⟨k, hk⟩ := round_multiple a
      rw [ha, hk]
      unfold roundHundreds
      have : (100 * (k:ℝ)) / 100 = k := by ring
      simp only [this, Int.floor_intCast, sub_self]
      norm_num
    · have : (passAlt kw cr.params.alt).altCr = some b := by
        unfold passAlt
        rw [hkw]
        exact hkw
      rw [r1.2 _ this, ha, hb b hkw]
  have lcl : lastT cl.rows = xcl.t ∧ lastS cl.rows = xcl.s := by
    unfold lastT lastS; rw [hxcl]; exact ⟨rfl, rfl⟩
  have lcr : lastT cr.rows = zcr.t ∧ lastS cr.rows = zcr.s := by
    unfold lastT lastS; rw [hzcr]; exact ⟨rfl, rfl⟩
  unfold joinParts
  rw [lcl.1, lcl.2, lcr.1, lcr.2]
  refine ⟨?_, ?_, ?_⟩
  · rw [List.isChain_append, List.isChain_append]
    refine ⟨⟨forward_offset fcl _ _, forward_offset fcr _ _, ?_⟩, forward_offset fde _ _, ?_⟩
    · intro x hx y hy
      simp only [List.getLast?_map, hxcl, List.head?_map, hycr, Option.map_some,
        Option.mem_def, Option.some.injEq] at hx hy
      subst hx hy
      simp [Forward, offset, derive, hycr0]
    · intro x hx y hy
      rw [List.getLast?_append] at hx
      simp only [List.getLast?_map, hzcr, List.head?_map, hxde, Option.map_some,
        Option.mem_def, Option.some.injEq, Option.some_or] at hx hy
      subst hx hy
      simp [Forward, offset, derive, xde0t, xde0s]
  · refine ⟨offset 0 0 ycl, ?_, ?_, ?_, ?_⟩
    · rw [List.append_assoc, List.head?_append]
      simp [hycl]
    · simp [offset, derive, hycl0]
    · simp [offset, derive, hycl0]
    · simp [offset, derive, hycl0]
  · refine ⟨_, _, _, offset 0 0 xcl, offset xcl.t xcl.s ycr, offset xcl.t xcl.s zcr,
      offset (xcl.t + zcr.t) (xcl.s + zcr.s) xde, rfl, ?_, ?_, ?_, ?_, ?_, ?_, ?_, ?_, ?_⟩
    · simp [hxcl]
    · simp [hycr]
    · simp [hzcr]
    · simp [hxde]
    · simp [offset, derive, hycr0]
    · simp [offset, derive, hycr0]
    · simp [offset, derive, xde0t]
    · simp [offset, derive, xde0s]
    · simp only [offset, derive]
      rw [hh, hP2cr, (k1 zcr (List.mem_of_getLast? hzcr)).1]

/-- A complete A320 flight at 35000 ft with a 10 s step meets the conditions of C55 and C56. -/
example : ∃ (f f' : FlightGen Unit) (rows : List OutRow) (kw : Kw), kw.Sensible ∧
    kw.dt = some 10 ∧ kw.altCr = some 35000 ∧ Gen.init shipped [97, 51, 50, 48] () true = .ok f ∧
    CompleteReturns ⟨fun _ => (0, ()), fun _ _ => ([], ())⟩ f kw rows f' := by
  obtain ⟨f, h1, h2⟩ := C55_complete_arguments (R := ⟨fun _ => (0, ()), fun _ _ => ([], ())⟩)
    [97, 51, 50, 48] (by decide +kernel) () (fun _ => by simp)
  have hk : Kw.Sensible { dt := some 10, altCr := some 35000 } :=
    ⟨by rintro _ ⟨rfl⟩; norm_num, by simp, by simp, by simp, by simp,
      by rintro _ ⟨rfl⟩; norm_num⟩
  obtain ⟨rows, f', h⟩ := (h2 f (.inl rfl) f.rng _ hk).1.2 ⟨rfl, rfl⟩
  exact ⟨f, f', rows, _, hk, rfl, rfl, h1, h⟩

end Verif.Props
