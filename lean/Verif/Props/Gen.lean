import Verif.Lemmas.GenShipped

/-!
# C49–C54, C86–C90: generated climb, descent and cruise trajectories
-/

namespace Verif.Props
open Verif Verif.Gen Verif.Aero Verif.Tables Verif.Kinematic Verif.Registry
open Verif.Data (shipped)

variable {G : Type} {R : Rng G}

/-- **C49.** Row `i` of every returned climb, descent and cruise frame has time `i * dt`, with or
without noise; `dt` is 1 unless given. -/
theorem C49_time (f f' : FlightGen G) (kw : Kw) :
    (∀ fr, ClimbReturns R f kw fr f' → ∀ (i : ℕ) (hi : i < fr.rows.length),
      fr.rows[i].t = i * kw.dt.getD 1) ∧
    (∀ fr, DescentReturns R f kw fr f' → ∀ (i : ℕ) (hi : i < fr.rows.length),
      fr.rows[i].t = i * kw.dt.getD 1) ∧
    (∀ fr, CruiseReturns R f kw fr f' → ∀ (i : ℕ) (hi : i < fr.rows.length),
      fr.rows[i].t = i * kw.dt.getD 1) := by
  refine ⟨?_, ?_, ?_⟩
  · intro fr h i hi
    obtain ⟨P, g, ss, h1, h2, rfl, -⟩ := climbReturns_iff.1 h
    rw [← climbSetup_dt h1]
    exact frame_time (row := ClimbState.toRow) (climb_t P) h2 rfl _ i hi
  · intro fr h i hi
    obtain ⟨P, g, ss, h1, h2, rfl, -⟩ := descentReturns_iff.1 h
    rw [← descentSetup_dt h1]
    have := frame_time (R := R) (row := id) (descent_t P) h2 rfl { f with rng := g } i
    simp only [List.map_id_fun, id] at this
    exact this hi
  · intro fr h i hi
    obtain ⟨P, g, ss, h1, h2, rfl, -⟩ := cruiseReturns_iff.1 h
    rw [← cruiseSetup_dt h1]
    have := frame_time (R := R) (row := id) (body := cruiseBody P) (dt := P.dt)
      (fun _ => rfl) h2 rfl { f with rng := g } i
    simp only [List.map_id_fun, id] at this
    exact this hi

theorem climbReturns_of {f : FlightGen G} {kw : Kw} {P : ClimbParams} {g : G}
    (h : climbSetup R f kw = .ok (P, g)) (hP : P.Valid) : ∃ fr f', ClimbReturns R f kw fr f' := by
  obtain ⟨ss, hs⟩ := climb_terminates hP
  exact ⟨_, _, climbReturns_iff.2 ⟨P, g, ss, h, hs, rfl, rfl⟩⟩

/-- **C50.** With positive time step, acceleration and climb rates and non-negative Mach the
climb returns. Without noise altitude and distance never decrease along the rows, and the final
altitude is at least the requested cruise altitude and exceeds the largest of the cruise
altitude, the crossover altitude, the constant-CAS altitude and 1500 ft by less than one time
step of climb. -/
theorem C50_climb (f : FlightGen G) (kw : Kw) (P : ClimbParams) (g : G)
    (hs : climbSetup R f kw = .ok (P, g)) (hP : P.Valid) :
    (∃ fr f', ClimbReturns R f kw fr f') ∧
    (f.noise = false → ∀ fr f', ClimbReturns R f kw fr f' → fr.params = P ∧
      fr.rows.IsChain (fun a b => a.h ≤ b.h ∧ a.s ≤ b.s) ∧
      ∃ x, fr.rows.getLast? = some x ∧ P.hCr ≤ x.h ∧ x.vs = 0 ∧
        max (max P.hCr P.hMach) (max P.hCas (1500 * 0.3048)) ≤ x.h ∧
        x.h < max (max P.hCr P.hMach) (max P.hCas (1500 * 0.3048)) +
          max (max P.vsIc P.vsPre) (max P.vsCas P.vsMach) * P.dt) := by
  refine ⟨climbReturns_of hs hP, ?_⟩
  intro hn fr f' h
  obtain ⟨P', g', ss, h1, h2, rfl, -⟩ := climbReturns_iff.1 h
  rw [hs] at h1
  obtain ⟨rfl, rfl⟩ : P = P' ∧ g = g' := by simpa using h1
  rw [addNoise_off hn]
  refine ⟨rfl, ?_, ?_⟩
  · simp only [List.map_map, List.isChain_map]
    refine trace_chain (Inv := ClimbInv P) ?_ h2 (climbInv_init hP)
    intro x hx _
    refine ⟨climbInv_step hP hx, ?_, ?_⟩
    · show x.h ≤ (climbBody P x).1.h
      rw [climb_h]
      have := mul_nonneg (hx.vs_nonneg hP) hP.dt.le
      linarith
    · show x.s ≤ (climbBody P x).1.s
      rw [climb_s]
      have := mul_nonneg hx.v hP.dt.le
      linarith
  · obtain ⟨x, hx, c1, c2, c3⟩ := climb_last hP h2
    refine ⟨derive x.toRow, by simp [hx], (level_le.1 c1).1, c3, c1, c2⟩

/-- **C50, shipped tables.** For every offered type code, every positive time step, every
non-negative Mach and every other argument, random or not, with or without noise, the climb
returns. -/
theorem C50_climb_shipped (ac : Str) (hac : ac ∈ availableAircraft shipped true) (seed : G)
    (hR : R.Unit) :
    ∃ f, Gen.init shipped ac seed true = .ok f ∧ ∀ f', (f' = f ∨ f' = enableNoise f) →
      ∀ g kw, (∀ d, kw.dt = some d → 0 < d) → (∀ m, kw.machCl = some m → 0 ≤ m) →
        ∃ fr f'', ClimbReturns R { f' with rng := g } kw fr f'' := by
  obtain ⟨f, h1, h2, -⟩ := init_shipped hac seed
  refine ⟨f, h1, ?_⟩
  intro f' hf g kw hd hm
  have hw : f'.wrap = f.wrap := by rcases hf with rfl | rfl <;> rfl
  obtain ⟨P, g', hs, hP, -⟩ := climbSetup_ok (R := R) (f := { f' with rng := g }) (kw := kw)
    (by rw [← h2, ← hw]) hR hd hm
  exact climbReturns_of hs hP

/-- **C51.** When the requested level, rounded to hundreds of feet, is at least the crossover
altitude, the constant-CAS altitude and 1500 ft, the climb levels off less than one step above
it; rounding moves the request by at most 50 ft. -/
theorem C51_levels_off (f : FlightGen G) (kw : Kw) (P : ClimbParams) (g : G) (a : ℝ)
    (hs : climbSetup R f kw = .ok (P, g)) (hP : P.Valid) (hn : f.noise = false)
    (ha : kw.altCr = some a) :
    ∃ k : ℤ, P.alt = 100 * k ∧ |P.alt - a| ≤ 50 ∧
    (P.hMach ≤ P.alt * 0.3048 → P.hCas ≤ P.alt * 0.3048 → 1500 ≤ P.alt →
      ∀ fr f', ClimbReturns R f kw fr f' → ∃ x, fr.rows.getLast? = some x ∧
        P.alt * 0.3048 ≤ x.h ∧
        x.h < P.alt * 0.3048 + max (max P.vsIc P.vsPre) (max P.vsCas P.vsMach) * P.dt) := by
  have e : P.alt = roundHundreds a ∧ P.hCr = P.alt * 0.3048 := by
    have h := hs
    unfold climbSetup at h
    simp only [bind, Except.bind, pure, Except.pure, ha, Option.getD_some] at h
    repeat' split at h
    all_goals first
      | (cases h; done)
      | (cases h; exact ⟨rfl, rfl⟩)
  obtain ⟨k, hk⟩ := round_multiple a
  refine ⟨k, by rw [e.1, hk], by rw [e.1]; exact round_near a, ?_⟩
  intro h1 h2 h3 fr f' hr
  obtain ⟨-, -, x, hx, c1, -, -, c4⟩ := (C50_climb f kw P g hs hP).2 hn fr f' hr
  refine ⟨x, hx, by rw [← e.2]; exact c1, ?_⟩
  rw [e.2, max_eq_left h1, max_eq_left (max_le h2 (by linarith))] at c4
  exact c4

/-- **C51, the other case.** For every offered type code, a climb to at most 9000 ft (2743 m)
does not level off there: it always ends at 3000 m or higher. -/
theorem C51_low_request_ignored (ac : Str) (hac : ac ∈ availableAircraft shipped true) (seed : G)
    (hR : R.Unit) :
    ∃ f, Gen.init shipped ac seed true = .ok f ∧
      ∀ kw a, kw.altCr = some a → a ≤ 9000 → (∀ d, kw.dt = some d → 0 < d) →
        (∀ m, kw.machCl = some m → 0 ≤ m) → ∃ fr f', ClimbReturns R f kw fr f' ∧
          fr.params.alt ≤ 9000 ∧ ∃ x, fr.rows.getLast? = some x ∧ 3000 ≤ x.h := by
  obtain ⟨f, h1, h2, h3, -⟩ := init_shipped hac seed
  refine ⟨f, h1, ?_⟩
  intro kw a ha ha' hd hm
  obtain ⟨P, g', hs, hP, hc, -, -, -, -, -, -, -, he⟩ :=
    climbSetup_ok (R := R) (f := f) (kw := kw) h2 hR hd hm
  obtain ⟨fr, f', hr⟩ := climbReturns_of hs hP
  obtain ⟨e, -, x, hx, -, -, c, -⟩ := (C50_climb f kw P g' hs hP).2 h3 fr f' hr
  refine ⟨fr, f', hr, ?_, x, hx, ?_⟩
  · rw [e, he a ha]
    obtain ⟨k, hk⟩ := round_multiple a
    have h50 := (abs_le.1 (round_near a)).2
    rw [hk] at h50 ⊢
    have : (k:ℝ) < 91 := by linarith
    have : k < 91 := by exact_mod_cast this
    have : k ≤ 90 := by omega
    have : (k:ℝ) ≤ 90 := by exact_mod_cast this
    linarith
  · exact hc.trans ((le_max_of_le_right (le_max_left _ _)).trans c)

theorem descentReturns_of {f : FlightGen G} {kw : Kw} {P : DescentParams} {g : G}
    (h : descentSetup R f kw = .ok (P, g)) (hP : P.Valid) :
    ∃ fr f', DescentReturns R f kw fr f' := by
  obtain ⟨ss, hs⟩ := descent_terminates hP
  exact ⟨_, _, descentReturns_iff.2 ⟨P, g, ss, h, hs, rfl, rfl⟩⟩

/-- **C52.** With positive time step, negative descent rates and landing acceleration, and
crossover, constant-CAS and cruise altitudes not below sea level the descent returns. Without
noise the altitude starts at the cruise altitude, never rises and is never negative; distance
never decreases when `0.2 dt` is below the approach speed; in the last row the aircraft is on the
ground, or so low that the next step reaches it, and one step of braking stops it. -/
theorem C52_descent (f : FlightGen G) (kw : Kw) (P : DescentParams) (g : G)
    (hs : descentSetup R f kw = .ok (P, g)) (hP : P.Valid) :
    (∃ fr f', DescentReturns R f kw fr f') ∧
    (f.noise = false → ∀ fr f', DescentReturns R f kw fr f' → fr.params = P ∧
      (∃ x, fr.rows.head? = some x ∧ x.h = P.hCr) ∧
      fr.rows.IsChain (fun a b => b.h ≤ a.h) ∧ (∀ x ∈ fr.rows, 0 ≤ x.h) ∧
      (0 ≤ P.mach → 0.2 * P.dt < P.vApp → fr.rows.IsChain (fun a b => a.s ≤ b.s)) ∧
      ∃ x, fr.rows.getLast? = some x ∧ (x.h = 0 ∧ x.vs = 0 ∨ 0 < x.h ∧ x.h ≤ -x.vs * P.dt) ∧
        x.v + P.aLnd * P.dt ≤ 0) := by
  refine ⟨descentReturns_of hs hP, ?_⟩
  intro hn fr f' h
  obtain ⟨P', g', ss, h1, h2, rfl, -⟩ := descentReturns_iff.1 h
  rw [hs] at h1
  obtain ⟨rfl, rfl⟩ : P = P' ∧ g = g' := by simpa using h1
  rw [addNoise_off hn]
  have hinv := trace_inv (Inv := DescentInv P) (fun _ h _ => (descentInv_step hP h).1) h2
      (descentInv_init hP)
  refine ⟨rfl, ?_, ?_, ?_, ?_, ?_⟩
  · exact ⟨derive (descentInit P), by simp [trace_head h2], rfl⟩
  · simp only [List.isChain_map]
    exact trace_chain (Inv := DescentInv P) (fun x hx _ => descentInv_step hP hx) h2
      (descentInv_init hP)
  · intro x hx
    obtain ⟨y, hy, rfl⟩ := List.mem_map.1 hx
    exact (hinv y hy).h
  · intro hm hd
    simp only [List.isChain_map]
    refine trace_chain (Inv := fun x => 0 ≤ x.v) ?_ h2 (mach2tas_nonneg hm _)
    intro x hx hb
    refine ⟨descent_v hP hm hd hx hb, ?_⟩
    show x.s ≤ (descentBody P x).1.s
    rw [descent_s]
    have := mul_nonneg hx hP.dt.le
    linarith
  · obtain ⟨x, hx, c1, c2⟩ := descent_last hP h2
    have hi := hinv x (List.mem_of_getLast? hx)
    refine ⟨derive x, by simp [hx], ?_, c2⟩
    show x.h = 0 ∧ x.vs = 0 ∨ 0 < x.h ∧ x.h ≤ -x.vs * P.dt
    rcases hi.h.eq_or_lt with h0 | h0
    · exact .inl ⟨h0.symm, hi.ground h0.symm⟩
    · exact .inr ⟨h0, by linarith⟩

/-- **C52, shipped tables.** For every offered type code and all sensible arguments, random or
not, with or without noise, the descent returns. -/
theorem C52_descent_shipped (ac : Str) (hac : ac ∈ availableAircraft shipped true) (seed : G)
    (hR : R.Unit) :
    ∃ f, Gen.init shipped ac seed true = .ok f ∧ ∀ f', (f' = f ∨ f' = enableNoise f) →
      ∀ g kw, kw.Sensible → ∃ fr f'', DescentReturns R { f' with rng := g } kw fr f'' := by
  obtain ⟨f, h1, h2, -⟩ := init_shipped hac seed
  refine ⟨f, h1, ?_⟩
  intro f' hf g kw hk
  have hw : f'.wrap = f.wrap := by rcases hf with rfl | rfl <;> rfl
  obtain ⟨P, g', hs, hP, -⟩ := descentSetup_ok (R := R) (f := { f' with rng := g }) (kw := kw)
    (by rw [← h2, ← hw]) hR hk
  exact descentReturns_of hs hP

theorem cruise_s {P : CruiseParams} {x : Row} {ss : List Row} (h : Trace (cruiseBody P) x ss) :
    (∀ (i : ℕ) (hi : i < ss.length), ss[i].s = x.s + i * (x.v * P.dt)) ∧
    (∀ (i : ℕ) (hi : i < ss.length), 0 < i → ss[i].s ≤ P.distance) ∧
    P.distance < x.s + ss.length * (x.v * P.dt) := by
  induction h with
  | @last s hb =>
    refine ⟨?_, ?_, ?_⟩
    · intro i hi
      have : i = 0 := by simpa using hi
      subst this
      simp
    · intro i hi h0
      have : i = 0 := by simpa using hi
      omega
    · have : P.distance < s.s + s.v * P.dt := by simpa [cruiseBody] using hb
      simpa using this
  | @step s ss hb ht ih =>
    obtain ⟨i1, i2, i3⟩ := ih
    have hb : ¬ P.distance < s.s + s.v * P.dt := by simpa [cruiseBody] using hb
    simp only [cruiseBody] at i1 i3
    refine ⟨?_, ?_, ?_⟩
    · intro i hi
      cases i with
      | zero => simp
      | succ i =>
        simp only [List.getElem_cons_succ]
        rw [i1 i (by simpa using hi)]
        push_cast
        ring
    · intro i hi h0
      cases i with
      | zero => omega
      | succ i =>
        simp only [List.getElem_cons_succ]
        cases i with
        | zero =>
          rw [i1 0 (by simpa using hi)]
          simpa using hb
        | succ i => exact i2 (i + 1) (by simpa using hi) (by omega)
    · push_cast [List.length_cons]
      linarith

/-- **C53.** Let `v` be the cruise speed. The cruise returns exactly when `v dt` is positive or
exceeds the distance. Without noise row `i` is at distance `i v dt`, altitude and speed are
constant, every row after the first is within the distance and the next step would exceed it. -/
theorem C53_cruise (f : FlightGen G) (kw : Kw) (P : CruiseParams) (g : G)
    (hs : cruiseSetup R f kw = .ok (P, g)) (v : ℝ) (hv : v = mach2tas np P.mach (P.alt * 0.3048) 0) :
    ((∃ fr f', CruiseReturns R f kw fr f') ↔ 0 < v * P.dt ∨ P.distance < v * P.dt) ∧
    (f.noise = false → ∀ fr f', CruiseReturns R f kw fr f' →
      (∀ x ∈ fr.rows, x.h = P.alt * 0.3048 ∧ x.v = v ∧ x.vs = 0) ∧
      (∀ (i : ℕ) (hi : i < fr.rows.length), fr.rows[i].s = i * (v * P.dt)) ∧
      (∀ (i : ℕ) (hi : i < fr.rows.length), 0 < i → fr.rows[i].s ≤ P.distance) ∧
      P.distance < fr.rows.length * (v * P.dt)) := by
  have e : P.hCr = P.alt * 0.3048 := by
    have h := hs
    unfold cruiseSetup at h
    simp only [bind, Except.bind, pure, Except.pure] at h
    repeat' split at h
    all_goals first
      | (cases h; done)
      | (cases h; rfl)
  rw [← e] at hv
  have hi := cruise_ends_iff P (cruiseInit P)
  have hv' : (cruiseInit P).v = v := hv.symm
  have hs' : (cruiseInit P).s = 0 := rfl
  rw [hv', hs', zero_add] at hi
  rw [← hi]
  constructor
  · constructor
    · rintro ⟨fr, f', h⟩
      obtain ⟨P', g', ss, h1, h2, -⟩ := cruiseReturns_iff.1 h
      rw [hs] at h1
      obtain ⟨rfl, rfl⟩ : P = P' ∧ g = g' := by simpa using h1
      exact ⟨ss, h2⟩
    · rintro ⟨ss, h⟩
      exact ⟨_, _, cruiseReturns_iff.2 ⟨P, g, ss, hs, h, rfl, rfl⟩⟩
  · intro hn fr f' h
    obtain ⟨P', g', ss, h1, h2, rfl, -⟩ := cruiseReturns_iff.1 h
    rw [hs] at h1
    obtain ⟨rfl, rfl⟩ : P = P' ∧ g = g' := by simpa using h1
    rw [addNoise_off hn]
    have hc := cruise_trace_const h2
    obtain ⟨c1, c2, c3⟩ := cruise_s h2
    rw [hv', hs'] at c3
    refine ⟨?_, ?_, ?_, ?_⟩
    · intro x hx
      obtain ⟨y, hy, rfl⟩ := List.mem_map.1 hx
      obtain ⟨d1, d2, d3⟩ := hc y hy
      exact ⟨d2.trans e, d1.trans hv', d3⟩
    · intro i hi
      have := c1 i (by simpa using hi)
      rw [hv', hs', zero_add] at this
      simpa [derive] using this
    · intro i hi h0
      have := c2 i (by simpa using hi) h0
      simpa [derive] using this
    · simpa using c3

/-- **C54.** `range_cr` is documented in kilometres, and its default is the table's kilometres
times 1000; but a given value is used as metres: the cruise stays within `r` metres and ends less
than one step short of `r` metres. -/
theorem C54_range_in_metres (f : FlightGen G) (kw : Kw) (P : CruiseParams) (g : G)
    (hs : cruiseSetup R f kw = .ok (P, g)) :
    (∀ r, kw.rangeCr = some r → P.distance = r ∧ (0 ≤ r → f.noise = false →
      ∀ fr f', CruiseReturns R f kw fr f' → ∃ x, fr.rows.getLast? = some x ∧ x.s ≤ r ∧
        r < x.s + x.v * P.dt)) ∧
    (kw.rangeCr = none → kw.random.getD false = false →
      ∃ w, getVar f.wrap cruiseRange = .ok w ∧ P.distance = wreal w.opt * 1000) := by
  constructor
  · intro r hr
    have e : P.distance = r := by
      have h := hs
      unfold cruiseSetup at h
      simp only [bind, Except.bind, pure, Except.pure, hr, Option.getD_some] at h
      repeat' split at h
      all_goals first
        | (cases h; done)
        | (cases h; rfl)
    refine ⟨e, ?_⟩
    intro h0 hn fr f' h
    obtain ⟨c1, c2, c3, c4⟩ := (C53_cruise f kw P g hs _ rfl).2 hn fr f' h
    have hl : fr.rows ≠ [] := by
      obtain ⟨P', g', ss, -, h2, rfl, -⟩ := cruiseReturns_iff.1 h
      rw [addNoise_off hn]
      simpa using trace_ne_nil h2
    have hlen : 0 < fr.rows.length := List.length_pos_iff.2 hl
    refine ⟨fr.rows[fr.rows.length - 1], ?_, ?_, ?_⟩
    · rw [List.getLast?_eq_getElem?, List.getElem?_eq_getElem]
    · rcases Nat.eq_zero_or_pos (fr.rows.length - 1) with hz | hp
      · have := c2 (fr.rows.length - 1) (by omega)
        rw [this, hz]
        simpa using h0
      · rw [← e]; exact c3 _ (by omega) hp
    · rw [c2 (fr.rows.length - 1) (by omega), (c1 _ (List.getElem_mem _)).2.1, ← e]
      have hc : ((fr.rows.length - 1 : ℕ) : ℝ) = fr.rows.length - 1 := by
        rw [Nat.cast_sub hlen]; simp
      rw [hc]
      linarith
  · intro h0 h1
    have h := hs
    unfold cruiseSetup at h
    simp only [bind, Except.bind, pure, Except.pure, h0, h1, Option.getD_none,
      Bool.false_eq_true, if_false] at h
    repeat' split at h
    · cases h
    · cases h
    · cases h
    · next w hw _ _ _ _ _ _ =>
      cases h
      exact ⟨w, hw, rfl⟩

/-- The hypotheses of the theorems above are met by the default A320, among others. -/
example : ∃ (f : FlightGen Unit) (kw : Kw) (P : ClimbParams) (D : DescentParams)
    (C : CruiseParams) (g g' g'' : Unit),
    climbSetup ⟨fun _ => (0, ()), fun _ _ => ([], ())⟩ f kw = .ok (P, g) ∧ P.Valid ∧
    descentSetup ⟨fun _ => (0, ()), fun _ _ => ([], ())⟩ f kw = .ok (D, g') ∧ D.Valid ∧
    cruiseSetup ⟨fun _ => (0, ()), fun _ _ => ([], ())⟩ f kw = .ok (C, g'') ∧
    kw.altCr = some 35000 ∧ f.noise = false := by
  obtain ⟨f, -, h1, h2, -⟩ := init_shipped (ac := [97, 51, 50, 48]) (by decide +kernel) ()
  have hR : Rng.Unit (G := Unit) ⟨fun _ => (0, ()), fun _ _ => ([], ())⟩ := fun _ => by simp
  have hk : Kw.Sensible { altCr := some 35000 } :=
    ⟨by simp, by simp, by simp, by simp, by simp, by rintro _ ⟨rfl⟩; norm_num⟩
  obtain ⟨P, g, a1, a2, -⟩ := climbSetup_ok h1 hR hk.dt hk.machCl
  obtain ⟨D, g', b1, b2, -⟩ := descentSetup_ok h1 hR hk
  obtain ⟨C, g'', c1, -⟩ := cruiseSetup_ok h1 hR hk
  exact ⟨f, _, P, D, C, g, g', g'', a1, a2, b1, b2, c1, rfl, h2⟩

end Verif.Props
