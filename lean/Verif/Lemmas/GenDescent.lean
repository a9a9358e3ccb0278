import Verif.Lemmas.GenClimb
import Verif.Props.Airspeed
import Verif.Props.Crossover

/-!
# The descent and cruise loops
-/

namespace Verif.Gen
open Verif Verif.Aero

/-- Gentlest descent rate. -/
noncomputable def DescentParams.vsMin (P : DescentParams) : ℝ :=
  min (min (-P.vsMach) (-P.vsCas)) (min (-P.vsPost) (-P.vsFa))

theorem descent_vsMin_pos {P : DescentParams} (hP : P.Valid) : 0 < P.vsMin := by
  have := hP.vsMach; have := hP.vsCas; have := hP.vsPost; have := hP.vsFa
  unfold DescentParams.vsMin
  simp [*]

theorem descent_t (P : DescentParams) (x : Row) : (descentBody P x).1.t = x.t + P.dt := by
  unfold descentBody; dsimp only; split_ifs <;> rfl

theorem descent_s (P : DescentParams) (x : Row) :
    (descentBody P x).1.s = x.s + x.v * P.dt := by
  unfold descentBody; dsimp only; split_ifs <;> rfl

theorem descent_cases {P : DescentParams} (hP : P.Valid) (x : Row) :
    (P.withcr = true ∧ x.t + P.dt < 60 ∧ (descentBody P x).1.h = x.h + x.vs * P.dt ∧
      (descentBody P x).1.vs = 0 ∧ (descentBody P x).2 = false) ∨
    (¬ (P.withcr = true ∧ x.t + P.dt < 60) ∧ 0 < x.h + x.vs * P.dt ∧
      (descentBody P x).1.h = x.h + x.vs * P.dt ∧
      (descentBody P x).1.vs ≤ -P.vsMin ∧ (descentBody P x).2 = false) ∨
    (¬ (P.withcr = true ∧ x.t + P.dt < 60) ∧ x.h + x.vs * P.dt ≤ 0 ∧
      (descentBody P x).1.h = 0 ∧ (descentBody P x).1.vs = 0 ∧
      (descentBody P x).1.v = x.v + P.aLnd * P.dt ∧
      (descentBody P x).2 = decide (x.v + P.aLnd * P.dt ≤ 0)) := by
  have h1 := hP.hMach
  have h2 := hP.hCas
  have hft : (0:ℝ) < 1000 * ft := by unfold ft; norm_num
  have m1 : P.vsMach ≤ -P.vsMin := by unfold DescentParams.vsMin; rw [le_neg]; simp
  have m2 : P.vsCas ≤ -P.vsMin := by unfold DescentParams.vsMin; rw [le_neg]; simp
  have m3 : P.vsPost ≤ -P.vsMin := by unfold DescentParams.vsMin; rw [le_neg]; simp
  have m4 : P.vsFa ≤ -P.vsMin := by unfold DescentParams.vsMin; rw [le_neg]; simp
  unfold descentBody
  dsimp only
  split_ifs with c1 c2 c3 c4 c5 c6
  · exact .inl ⟨c1.2, c1.1, rfl, rfl, rfl⟩
  · exact .inr (.inl ⟨fun h => c1 h.symm, by linarith, rfl, m1, rfl⟩)
  · exact .inr (.inl ⟨fun h => c1 h.symm, by linarith, rfl, m2, rfl⟩)
  · exact .inr (.inl ⟨fun h => c1 h.symm, by linarith, rfl, m3, rfl⟩)
  · exact .inr (.inl ⟨fun h => c1 h.symm, by linarith, rfl, m3, rfl⟩)
  · exact .inr (.inl ⟨fun h => c1 h.symm, by linarith, rfl, m4, rfl⟩)
  · exact .inr (.inr ⟨fun h => c1 h.symm, by linarith, rfl, rfl, rfl, rfl⟩)

/-- Invariant of the descent loop. -/
structure DescentInv (P : DescentParams) (x : Row) : Prop where
  h : 0 ≤ x.h
  h_le : x.h ≤ P.hCr
  vs : x.vs ≤ 0
  level : P.withcr = true → x.t < 60 → x.vs = 0
  ground : x.h = 0 → x.vs = 0

theorem descentInv_init {P : DescentParams} (hP : P.Valid) :
    DescentInv P (descentInit P) where
  h := hP.hCr
  h_le := le_rfl
  vs := le_rfl
  level _ _ := rfl
  ground _ := rfl

theorem descentInv_step {P : DescentParams} (hP : P.Valid) {x : Row} (hx : DescentInv P x) :
    DescentInv P (descentBody P x).1 ∧ (descentBody P x).1.h ≤ x.h := by
  have hdt := hP.dt
  have hmin := descent_vsMin_pos hP
  have hvs := hx.vs
  have hh := hx.h
  have hle := hx.h_le
  have hd : x.vs * P.dt ≤ 0 := mul_nonpos_of_nonpos_of_nonneg hvs hdt.le
  rcases descent_cases hP x with c | c | c
  · have h0 := hx.level c.1 (by linarith)
    rw [h0, zero_mul, add_zero] at c
    obtain ⟨c1, c2, c3, c4, -⟩ := c
    refine ⟨⟨?_, ?_, ?_, ?_, ?_⟩, ?_⟩ <;> simp_all
  · obtain ⟨c1, c2, c3, c4, -⟩ := c
    refine ⟨⟨?_, ?_, ?_, ?_, ?_⟩, ?_⟩
    · rw [c3]; exact c2.le
    · rw [c3]; linarith
    · linarith
    · rw [descent_t]; exact fun a b => absurd ⟨a, b⟩ c1
    · rw [c3]; intro h; linarith
    · rw [c3]; linarith
  · obtain ⟨c1, c2, c3, c4, -⟩ := c
    refine ⟨⟨?_, ?_, ?_, ?_, ?_⟩, ?_⟩
    · rw [c3]
    · rw [c3]; linarith
    · rw [c4]
    · exact fun _ _ => c4
    · exact fun _ => c4
    · rw [c3]; exact hh

/-- Measure of the descent loop. -/
noncomputable def descentMeasure (P : DescentParams) (x : Row) : ℕ × ℕ × ℕ :=
  (⌈(60 - x.t) / P.dt⌉₊, ⌈(x.h + x.vs * P.dt) / (P.vsMin * P.dt)⌉₊,
    ⌈x.v / (-P.aLnd * P.dt)⌉₊)

theorem descent_decreases {P : DescentParams} (hP : P.Valid) {x : Row}
    (hb : (descentBody P x).2 = false) :
    Prod.Lex (· < ·) (Prod.Lex (· < ·) (· < ·)) (descentMeasure P (descentBody P x).1)
      (descentMeasure P x) := by
  have hdt := hP.dt
  have hmin := mul_pos (descent_vsMin_pos hP) hdt
  have ha : 0 < -P.aLnd * P.dt := mul_pos (by linarith [hP.aLnd]) hdt
  unfold descentMeasure
  rw [descent_t]
  have hT : ⌈(60 - (x.t + P.dt)) / P.dt⌉₊ ≤ ⌈(60 - x.t) / P.dt⌉₊ :=
    ceil_mono hdt (by linarith)
  rcases descent_cases hP x with c | c | c
  · exact .left _ _ (ceil_drop hdt (by linarith) (by linarith))
  · rcases hT.lt_or_eq with h | h
    · exact .left _ _ h
    · rw [h]
      obtain ⟨-, c2, c3, c4, -⟩ := c
      refine .right _ (.left _ _ ?_)
      rw [c3]
      apply ceil_drop hmin c2
      nlinarith
  · rcases hT.lt_or_eq with h | h
    · exact .left _ _ h
    · rw [h]
      obtain ⟨-, c2, c3, c4, c5, c6⟩ := c
      rw [hb] at c6
      have c6 := of_decide_eq_false c6.symm
      refine .right _ ?_
      rw [c3, c4, c5, zero_mul, add_zero, zero_div, Nat.ceil_zero,
        Nat.ceil_eq_zero.2 (div_nonpos_of_nonpos_of_nonneg c2 hmin.le)]
      refine .right _ (ceil_drop ha ?_ ?_)
      · nlinarith
      · linarith

/-- The descent loop ends. -/
theorem descent_terminates {P : DescentParams} (hP : P.Valid) :
    ∃ ss, Trace (descentBody P) (descentInit P) ss :=
  trace_exists (Prod.lex ⟨_, Nat.lt_wfRel.wf⟩
      (Prod.lex ⟨_, Nat.lt_wfRel.wf⟩ ⟨_, Nat.lt_wfRel.wf⟩)).wf (descentMeasure P)
    (Inv := DescentInv P) (fun _ hx hb => ⟨(descentInv_step hP hx).1, descent_decreases hP hb⟩) _ (descentInv_init hP)

/-- The last row: the next step reaches the ground and stops the aircraft. -/
theorem descent_last {P : DescentParams} (hP : P.Valid) {ss : List Row}
    (h : Trace (descentBody P) (descentInit P) ss) :
    ∃ x, ss.getLast? = some x ∧ x.h + x.vs * P.dt ≤ 0 ∧ x.v + P.aLnd * P.dt ≤ 0 := by
  obtain ⟨x, hx, hb⟩ := trace_last h
  refine ⟨x, hx, ?_⟩
  rcases descent_cases hP x with c | c | c
  · rw [c.2.2.2.2] at hb; cases hb
  · rw [c.2.2.2.2] at hb; cases hb
  · rw [c.2.2.2.2.2] at hb
    exact ⟨c.2.1, of_decide_eq_true hb⟩

theorem ft_val : (ft : ℝ) = 0.3048 := rfl

theorem tas2cas_neg (v h : ℝ) : tas2cas np (-v) h 0 = tas2cas np v h 0 := by
  unfold tas2cas
  simp only [mul_neg, neg_mul, neg_neg]

/-- Speed stays non-negative when one second of deceleration per step does not exceed the
approach speed. -/
theorem descent_v {P : DescentParams} (hP : P.Valid) (hm : 0 ≤ P.mach)
    (hd : 0.2 * P.dt < P.vApp) {x : Row} (hx : 0 ≤ x.v) (hb : (descentBody P x).2 = false) :
    0 ≤ (descentBody P x).1.v := by
  have hdt := hP.dt
  revert hb
  unfold descentBody
  dsimp only
  split_ifs with c1 c2 c3 c4 c5 c6
  · intro _; exact mach2tas_nonneg hm _
  · intro _; exact mach2tas_nonneg hm _
  · intro _; exact cas2tas_nonneg _ _
  · intro _; exact cas2tas_nonneg _ _
  · intro _
    simp only
    by_contra hn
    push Not at hn
    apply c5
    set h := x.h + x.vs * P.dt with hh
    rw [← tas2cas_neg]
    have hft : (0.01:ℝ) ≤ h := by rw [ft_val] at c4; linarith
    have := (Verif.Props.C09_eas_le_cas_le_tas (-(x.v + -0.2 * P.dt)) h (by linarith)
      (by linarith)).2.2 hft
    linarith
  · intro _; simp only; linarith
  · simp only [decide_eq_false_iff_not]
    intro h; linarith

/-! ## Crossover altitude below sea level -/

/-- `crossover_alt` is negative exactly when Mach is below `CAS / a0`. -/
theorem crossover_neg {v m : ℝ} (hv : 0 < v) (hm : 1e-4 ≤ m) :
    crossoverAlt np v m 0 < 0 ↔ m < v / 340.293988 := by
  obtain ⟨-, hmono, hz, -, -⟩ := Verif.Props.C11_crossover 0 (by norm_num)
  constructor
  · intro h
    by_contra hc
    push Not at hc
    rcases le_total 1e-4 (v / 340.293988) with h1 | h1
    · have h0 := (hz v _ hv h1).2 rfl
      have := (hmono v hv).monotoneOn h1 hm hc
      linarith
    · have h2 := hz v m hv hm
      -- reach zero from a larger speed
      obtain ⟨hanti, -⟩ := Verif.Props.C11_crossover 0 (by norm_num)
      have h3 := (hz (340.293988 * m) m (by linarith) hm).2 (by field_simp)
      have h4 : v ≤ 340.293988 * m := by
        rw [div_le_iff₀ (by norm_num)] at hc; linarith
      have h5 : (340.293988 * m) ∈ Set.Ici (0:ℝ) := by
        rw [Set.mem_Ici]; linarith
      have := (hanti m hm).antitoneOn (show v ∈ Set.Ici (0:ℝ) from hv.le) h5 h4
      linarith
  · intro h
    have h1 : (1e-4:ℝ) ≤ v / 340.293988 := hm.trans h.le
    have h0 := (hz v _ hv h1).2 rfl
    have := hmono v hv hm h1 h
    linarith

theorem vsound_lower (h : ℝ) : 295 < vsound np h 0 := by
  rw [vsound_eq]
  have := temp_lower h 0
  have h0 : Verif.Spec.shift 0 = 0 := by simp [Verif.Spec.shift]; norm_num
  rw [h0] at this
  apply Real.lt_sqrt_of_sq_lt
  norm_num at this ⊢
  linarith

/-- The descent loop never ends when the crossover altitude is below sea level and one step of
braking does not stop the aircraft. -/
theorem descent_diverges {P : DescentParams} (hcas : 0 ≤ P.hCas)
    (hmach : P.hMach < 0) (hm : 0 < P.mach) (hbrake : -P.aLnd * P.dt < 295 * P.mach) :
    ¬ ∃ ss, Trace (descentBody P) (descentInit P) ss := by
  have hspd : ∀ h, 295 * P.mach < mach2tas np P.mach h 0 := by
    intro h
    unfold mach2tas
    nlinarith [vsound_lower h]
  apply no_trace (Inv := fun x => 295 * P.mach < x.v ∨ x.h = 0 ∧ x.vs = 0)
  · intro x hx
    have hft : (0:ℝ) < 1000 * ft := by unfold ft; norm_num
    unfold descentBody
    dsimp only
    split_ifs with c1 c2 c3 c4 c5 c6
    · exact ⟨rfl, .inl (hspd _)⟩
    · exact ⟨rfl, .inl (hspd _)⟩
    · linarith
    · linarith
    · linarith
    · linarith
    · rcases hx with h | ⟨h, h'⟩
      · simp only [decide_eq_false_iff_not, not_le]
        exact ⟨by linarith, .inr (by simp)⟩
      · rw [h, h'] at c2
        simp at c2
        linarith
  · exact .inl (hspd _)

/-! ## Cruise -/

theorem cruise_trace_const {P : CruiseParams} {x : Row} {ss : List Row}
    (h : Trace (cruiseBody P) x ss) : ∀ y ∈ ss, y.v = x.v ∧ y.h = x.h ∧ y.vs = x.vs :=
  trace_inv (Inv := fun y => y.v = x.v ∧ y.h = x.h ∧ y.vs = x.vs)
    (fun y hy _ => by simpa [cruiseBody] using hy) h ⟨rfl, rfl, rfl⟩

/-- When the cruise loop ends. -/
theorem cruise_ends_iff (P : CruiseParams) (x : Row) :
    (∃ ss, Trace (cruiseBody P) x ss) ↔
      0 < x.v * P.dt ∨ P.distance < x.s + x.v * P.dt := by
  constructor
  · intro h
    by_contra hc
    push Not at hc
    refine no_trace (Inv := fun y => y.v = x.v ∧ y.s ≤ x.s) ?_ ⟨rfl, le_rfl⟩ h
    rintro y ⟨h1, h2⟩
    simp only [cruiseBody, decide_eq_false_iff_not, not_lt, h1]
    exact ⟨by linarith, trivial, by linarith⟩
  · rintro (h | h)
    · apply trace_exists (Inv := fun y => y.v = x.v) Nat.lt_wfRel.wf
        (fun y => ⌈(P.distance - y.s) / (x.v * P.dt)⌉₊) _ x rfl
      intro y hy hb
      simp only [cruiseBody, decide_eq_false_iff_not, not_lt, hy] at hb ⊢
      refine ⟨trivial, ?_⟩
      exact ceil_drop h (by linarith) (by linarith)
    · exact ⟨[x], .last (by simpa [cruiseBody] using h)⟩

end Verif.Gen
