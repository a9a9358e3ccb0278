import Verif.Lemmas.GenDistance

/-!
# Euler steps of the distance against the continuous flight: descent
-/

namespace Verif.Gen
open Verif Verif.Aero Verif.Spec MeasureTheory Set
open Verif.Props (cas2tas_ge)

/-! ## The profile of the deceleration -/

section
variable {v0 a b : ℝ} {T A : ℝ → ℝ} (ha : 0 ≤ a) (hT : ∀ u w, u ≤ w → T w ≤ T u) (hA : Monotone A)
include ha hT hA

theorem slowDown_bdd (u : ℝ) :
    BddAbove (range fun w : Icc (min u b) b => A w - a * (T (min u b) - T w)) := by
  refine ⟨A b, ?_⟩
  rintro _ ⟨w, rfl⟩
  have := hA w.2.2
  have := mul_nonneg ha (sub_nonneg.2 (hT _ w w.2.1))
  simp only
  linarith

theorem le_slowDown {u w : ℝ} (hu : u ≤ w) (hw : w ≤ b) :
    A w - a * (T u - T w) ≤ slowDown v0 a b T A u := by
  have e : min u b = u := min_eq_left (hu.trans hw)
  refine le_trans ?_ (le_max_right _ _)
  have := le_ciSup (slowDown_bdd ha hT hA (b := b) u) ⟨w, by rwa [e], hw⟩
  simpa only [e] using this

theorem floor_le_slowDown {u : ℝ} (hu : u ≤ b) : A u ≤ slowDown v0 a b T A u := by
  have := le_slowDown (v0 := v0) ha hT hA le_rfl hu
  simpa using this

omit ha hT hA in
theorem start_le_slowDown {u : ℝ} (hu : u ≤ b) : v0 - a * T u ≤ slowDown v0 a b T A u := by
  unfold slowDown
  rw [min_eq_left hu]
  exact le_max_left _ _

omit ha hT hA in
theorem slowDown_le {u x : ℝ} (hu : u ≤ b) (h1 : v0 - a * T u ≤ x)
    (h2 : ∀ w, u ≤ w → w ≤ b → A w - a * (T u - T w) ≤ x) : slowDown v0 a b T A u ≤ x := by
  unfold slowDown
  rw [min_eq_left hu]
  have : Nonempty (Icc u b) := ⟨⟨u, le_rfl, hu⟩⟩
  exact max_le h1 (ciSup_le fun w => h2 w w.2.1 w.2.2)

omit ha hT hA in
theorem slowDown_cut (u : ℝ) : slowDown v0 a b T A u = slowDown v0 a b T A (min u b) :=
  congrArg (fun y => max (v0 - a * T y) (⨆ w : Icc y b, (A w - a * (T y - T w))))
    (min_eq_left (min_le_right u b)).symm

/-- No slower than the allowed deceleration. -/
theorem slowDown_slope {u w : ℝ} (h : u ≤ w) (hw : w ≤ b) :
    slowDown v0 a b T A w ≤ slowDown v0 a b T A u + a * (T u - T w) := by
  refine slowDown_le hw ?_ fun z hz hzb => ?_
  · have := start_le_slowDown (v0 := v0) (a := a) (T := T) (A := A) (h.trans hw)
    linarith
  · have := le_slowDown (v0 := v0) ha hT hA (h.trans hz) hzb
    linarith

theorem slowDown_mono : Monotone (slowDown v0 a b T A) := by
  have key : ∀ {u w}, u ≤ w → w ≤ b → slowDown v0 a b T A u ≤ slowDown v0 a b T A w := by
    intro u w h hw
    refine slowDown_le (h.trans hw) ?_ fun z hz hzb => ?_
    · have := start_le_slowDown (v0 := v0) (a := a) (T := T) (A := A) hw
      nlinarith [hT u w h]
    · rcases le_total w z with c | c
      · have := le_slowDown (v0 := v0) ha hT hA c hzb
        nlinarith [hT u w h]
      · have := floor_le_slowDown (v0 := v0) ha hT hA hw
        have := hA c
        nlinarith [hT u z hz]
  intro u w h
  rw [slowDown_cut u, slowDown_cut w]
  exact key (min_le_min_right b h) (min_le_right _ _)

/-- No faster than at the start. -/
theorem slowDown_top (hTb : T b = 0) (u : ℝ) : slowDown v0 a b T A u ≤ max v0 (A b) := by
  rw [slowDown_cut]
  refine (slowDown_mono ha hT hA (min_le_right u b)).trans (slowDown_le le_rfl ?_ fun w h1 h2 => ?_)
  · rw [hTb]
    simp
  · obtain rfl := le_antisymm h2 h1
    simp

end

/-! ## Descent -/

/-- Speed of constant CAS. -/
noncomputable def DescentParams.cap (P : DescentParams) (u : ℝ) : ℝ := cas2tas np P.vcas u 0

/-- Speed of the approach CAS. -/
noncomputable def DescentParams.floor (P : DescentParams) (u : ℝ) : ℝ := cas2tas np P.vApp u 0

/-- Where the deceleration begins. -/
noncomputable def DescentParams.enter (P : DescentParams) : ℝ := min (min P.hMach P.hCas) P.hCr

/-- The speed there. -/
noncomputable def DescentParams.vEnter (P : DescentParams) : ℝ :=
  if P.hCr ≤ min P.hMach P.hCas then mach2tas np P.mach P.hCr 0
  else if P.hMach ≤ P.hCas then mach2tas np P.mach P.hMach 0 else P.cap P.hCas

/-- Speed below constant CAS. -/
noncomputable def DescentParams.slow (P : DescentParams) : ℝ → ℝ :=
  slowDown P.vEnter 0.2 P.enter (fun u => passage P.rate u P.enter) P.floor

/-- Speed of the continuous descent. -/
noncomputable def DescentParams.speed (P : DescentParams) : ℝ → ℝ :=
  descentSpeed P.cap (fun u => mach2tas np P.mach u 0) P.slow P.vApp P.hMach P.hCas

/-- What the theorems ask of the speeds. -/
structure DescentSpeeds (P : DescentParams) (W L : ℝ) : Prop where
  valid : P.Valid
  vcas : 0 ≤ P.vcas
  mach : 0 ≤ P.mach
  vApp : 0 ≤ P.vApp
  capW : P.cap P.hMach ≤ W
  machW : 340.3 * P.mach ≤ W
  floorW : P.floor P.enter ≤ W
  appW : P.vApp ≤ W
  L0 : 0 ≤ L
  lipE : ∀ u, P.enter < u → u ≤ P.hCr → |P.speed u - P.vEnter| ≤ L * (u - P.enter)
  lipA : ∀ u, 0 ≤ u → u ≤ P.enter → P.floor P.enter - P.floor u ≤ L * (P.enter - u)
  slowM : 0.2 * P.dt ≤ 295 * P.mach
  slowC : 0.2 * P.dt ≤ P.cap 0
  slowA : 0.2 * P.dt ≤ P.floor 0

namespace DescentSpeeds
variable {P : DescentParams} {W L : ℝ} (h : DescentSpeeds P W L)
include h

theorem floorMono : Monotone P.floor := cas2tas_mono h.vApp

theorem capMono : Monotone P.cap := cas2tas_mono h.vcas

theorem enter0 : 0 ≤ P.enter := le_min (le_min h.valid.hMach h.valid.hCas) h.valid.hCr

theorem passAnti : ∀ u w, u ≤ w → passage P.rate w P.enter ≤ passage P.rate u P.enter := by
  intro u w huw
  have hr := descent_rate h.valid
  rw [hr.add u w P.enter]
  linarith [hr.nonneg huw]

theorem machLe {u : ℝ} (hu : 0 ≤ u) : mach2tas np P.mach u 0 ≤ W := by
  refine le_trans ?_ h.machW
  simp only [mach2tas]
  rw [mul_comm]
  exact mul_le_mul_of_nonneg_right (vsound_sea hu) h.mach

theorem vEnterLe : P.vEnter ≤ W := by
  unfold DescentParams.vEnter
  split_ifs with c1 c2
  · exact h.machLe h.valid.hCr
  · exact h.machLe h.valid.hMach
  · exact (h.capMono (not_le.1 c2).le).trans h.capW

theorem slowMono : Monotone P.slow :=
  slowDown_mono (by norm_num) h.passAnti h.floorMono

theorem slow0 (u : ℝ) : 0 ≤ P.slow u := by
  have e : P.slow u = P.slow (min u P.enter) := slowDown_cut u
  rw [e]
  exact (cas2tas_nonneg _ _).trans
    (floor_le_slowDown (v0 := P.vEnter) (by norm_num) h.passAnti h.floorMono (min_le_right _ _))

theorem slowLe (u : ℝ) : P.slow u ≤ W :=
  (slowDown_top (by norm_num) h.passAnti h.floorMono intervalIntegral.integral_same u).trans
    (max_le h.vEnterLe h.floorW)

theorem speed : Speed P.speed W where
  meas := by
    refine ⟨P.speed, ?_, fun _ _ => rfl⟩
    have m1 : Measurable P.slow := h.slowMono.measurable
    have m2 : Measurable P.cap := h.capMono.measurable
    have m3 : Measurable fun u => mach2tas np P.mach u 0 := (mach2tas_anti h.mach).measurable
    exact Measurable.ite measurableSet_Ioi m3 (Measurable.ite measurableSet_Ioi m2
      (Measurable.ite measurableSet_Ioi m1 measurable_const))
  low u _ := by
    unfold DescentParams.speed descentSpeed
    split_ifs
    · exact mach2tas_nonneg h.mach u
    · exact cas2tas_nonneg _ _
    · exact h.slow0 u
    · exact h.vApp
  high u hu := by
    unfold DescentParams.speed descentSpeed
    split_ifs with c
    · exact h.machLe hu
    · exact (h.capMono (not_lt.1 c)).trans h.capW
    · exact h.slowLe u
    · exact h.appW

end DescentSpeeds

/-- Bound of the error of the distance at an altitude. -/
noncomputable def DescentParams.spent (P : DescentParams) (W u : ℝ) : ℝ :=
  W * (2 + P.vsMax / P.vsMin) * P.count u + if P.hMach < u then P.speed u else -P.speed u

theorem DescentSpeeds.step {P : DescentParams} {W L : ℝ} (hs : DescentSpeeds P W L) {h : ℝ}
    (h0 : 0 ≤ h - P.rate h * P.dt) :
    |P.speed h * P.dt - flown P.speed P.rate (h - P.rate h * P.dt) h| ≤
      (P.spent W (h - P.rate h * P.dt) - P.spent W h) * P.dt := by
  have hr := descent_rate hs.valid
  have hV := hs.speed
  have hd := hs.valid.dt
  have hp := hr.pos.trans_le (hr.low h)
  have hh : h - P.rate h * P.dt ≤ h := by nlinarith
  have hq := hr.ratio
  have a0 := hV.low h (h0.trans hh)
  have a1 := hV.high h (h0.trans hh)
  have b0 := hV.low _ h0
  have b1 := hV.high _ h0
  have w0 := a0.trans a1
  rcases passed_three (x := -P.hMach) (y := -P.hCas) (z := -(1000 * 0.3048)) (neg_le_neg hh) with
    ⟨c1, c2, c3, e⟩ | e
  · rw [neg_le_neg_iff, neg_lt_neg_iff] at c1 c2 c3
    have iff : ∀ {b u}, (h ≤ b ∨ b < h - P.rate h * P.dt) → u ∈ Icc (h - P.rate h * P.dt) h →
        (b < u ↔ b < h) := fun c hu =>
      ⟨fun i => i.trans_le hu.2, fun i => (c.resolve_left (not_le.2 i)).trans_le hu.1⟩
    have pe : passage P.rate (h - P.rate h * P.dt) h = P.dt := by
      rw [Rate.const (c := P.rate h) hh]
      · field_simp
        ring
      · intro u hu
        have hu := Ioo_subset_Icc_self hu
        unfold DescentParams.rate sinkRate
        simp only [iff c1 hu, iff c2 hu, iff c3 hu]
    have sp : ∀ u ∈ Icc (h - P.rate h * P.dt) h, P.speed u = if P.hMach < h then
        mach2tas np P.mach u 0 else if P.hCas < h then P.cap u else
        if 1000 * 0.3048 < h then P.slow u else P.vApp := by
      intro u hu
      unfold DescentParams.speed descentSpeed
      simp only [iff c1 hu, iff c2 hu, iff c3 hu]
    have le := left_mem_Icc.2 hh
    have re := right_mem_Icc.2 hh
    have co : P.count (h - P.rate h * P.dt) = P.count h := by
      unfold DescentParams.count
      linarith
    obtain ⟨l1, l2⟩ : |P.speed h * P.dt - flown P.speed P.rate (h - P.rate h * P.dt) h| ≤
        |P.speed (h - P.rate h * P.dt) - P.speed h| * P.dt ∧
        ((P.hMach < h → P.speed h ≤ P.speed (h - P.rate h * P.dt)) ∧
        (¬ P.hMach < h → P.speed (h - P.rate h * P.dt) ≤ P.speed h)) := by
      by_cases cc : P.hMach < h
      · have anti : AntitoneOn P.speed (Icc (h - P.rate h * P.dt) h) := by
          intro u hu w hw huw
          rw [sp u hu, sp w hw]
          simp only [cc, if_true]
          exact mach2tas_anti hs.mach huw
        obtain ⟨i1, i2⟩ := hV.between hr h0 hh (fun u hu => anti hu re hu.2) (fun u hu => anti le hu hu.1)
        rw [pe] at i1 i2
        have := anti le re hh
        refine ⟨?_, fun _ => this, fun i => absurd cc i⟩
        rw [abs_of_nonneg (sub_nonneg.2 this), abs_le]
        constructor <;> nlinarith
      · have mono : MonotoneOn P.speed (Icc (h - P.rate h * P.dt) h) := by
          intro u hu w hw huw
          rw [sp u hu, sp w hw]
          simp only [cc, if_false]
          split_ifs
          · exact hs.capMono huw
          · exact hs.slowMono huw
          · exact le_rfl
        obtain ⟨i1, i2⟩ := hV.between hr h0 hh (fun u hu => mono le hu hu.1) (fun u hu => mono hu re hu.2)
        rw [pe] at i1 i2
        have := mono le re hh
        refine ⟨?_, fun i => absurd i cc, fun _ => this⟩
        rw [abs_of_nonpos (sub_nonpos.2 this), abs_le]
        constructor <;> nlinarith
    unfold DescentParams.spent
    rw [co]
    simp only [iff c1 le]
    split_ifs with cc
    · rw [abs_of_nonneg (sub_nonneg.2 (l2.1 cc))] at l1
      linarith
    · rw [abs_of_nonpos (sub_nonpos.2 (l2.2 cc))] at l1
      linarith
  · have h3 : passage P.rate (h - P.rate h * P.dt) h ≤ P.vsMax / P.vsMin * P.dt := by
      refine (hr.upper hh).trans ?_
      rw [div_mul_eq_mul_div]
      exact div_le_div_of_nonneg_right (by nlinarith [hr.high h]) hr.pos.le
    obtain ⟨i1, i2⟩ := hV.between hr h0 hh (lo := 0) (hi := W) (fun u hu => hV.low u (h0.trans hu.1))
      fun u hu => hV.high u (h0.trans hu.1)
    have i3 : W * passage P.rate (h - P.rate h * P.dt) h ≤ W * (P.vsMax / P.vsMin * P.dt) :=
      mul_le_mul_of_nonneg_left h3 w0
    have i4 : P.speed h * P.dt ≤ W * (P.vsMax / P.vsMin * P.dt) := by
      refine mul_le_mul a1 ?_ hd.le w0
      nlinarith
    have i5 : 0 ≤ P.speed h * P.dt := by positivity
    have i6 : |P.speed h * P.dt - flown P.speed P.rate (h - P.rate h * P.dt) h| ≤
        W * (P.vsMax / P.vsMin) * P.dt := by
      rw [mul_assoc, abs_le]
      constructor <;> linarith
    refine i6.trans (mul_le_mul_of_nonneg_right ?_ hd.le)
    have e' : 1 ≤ P.count (h - P.rate h * P.dt) - P.count h := by
      unfold DescentParams.count
      linarith
    have k : W * (2 + P.vsMax / P.vsMin) * 1 ≤
        W * (2 + P.vsMax / P.vsMin) * (P.count (h - P.rate h * P.dt) - P.count h) :=
      mul_le_mul_of_nonneg_left e' (by positivity)
    unfold DescentParams.spent
    split_ifs <;> linarith

theorem DescentSpeeds.spent_le {P : DescentParams} {W L : ℝ} (hs : DescentSpeeds P W L) {h : ℝ}
    (h0 : 0 ≤ h) :
    0 ≤ P.spent W h ∧ P.spent W h ≤ W * (7 + 3 * (P.vsMax / P.vsMin)) := by
  have hV := hs.speed
  have a0 := hV.low h h0
  have a1 := hV.high h h0
  have w0 := a0.trans a1
  have hq := (descent_rate hs.valid).ratio
  have k : W * (2 + P.vsMax / P.vsMin) * P.count h ≤ W * (2 + P.vsMax / P.vsMin) * 3 :=
    mul_le_mul_of_nonneg_left (descent_count_le P h) (by positivity)
  unfold DescentParams.spent
  split_ifs with c
  · have : 0 ≤ W * (2 + P.vsMax / P.vsMin) * P.count h :=
      mul_nonneg (by positivity) (descent_count_nonneg P h)
    constructor <;> linarith
  · have n1 : passed (-P.hMach) (-h) = 1 := by simp [passed, not_lt.1 c]
    have n2 := passed_nonneg (-P.hCas) (-h)
    have n3 := passed_nonneg (-(1000 * 0.3048)) (-h)
    have : W * (2 + P.vsMax / P.vsMin) * 1 ≤ W * (2 + P.vsMax / P.vsMin) * P.count h := by
      refine mul_le_mul_of_nonneg_left ?_ (by positivity)
      unfold DescentParams.count
      linarith
    have : 0 ≤ W * (P.vsMax / P.vsMin) := by positivity
    constructor <;> linarith

/-- The limitation to the approach speed is a maximum. -/
theorem clamp_max {v c h : ℝ} (hv : 0 ≤ v) (hc : 0 ≤ c) :
    (if tas2cas np v h 0 < c then cas2tas np c h 0 else v) = max v (cas2tas np c h 0) := by
  have e := (Props.C07_round_trips c h 0).2.2.2.2.1
  rw [abs_of_nonneg hc] at e
  have mono := (Props.C08_increasing h 0).2 (tas2cas np) (by simp)
  split_ifs with i
  · rw [max_eq_right]
    by_contra hn
    have := mono _ _ (cas2tas_nonneg c h) (not_le.1 hn)
    rw [e] at this
    linarith
  · rw [max_eq_left]
    by_contra hn
    have := mono _ _ hv (not_le.1 hn)
    rw [e] at this
    linarith

/-- A speed close to the decelerating profile. -/
structure SlowNear (P : DescentParams) (L v h : ℝ) : Prop where
  low : P.floor h ≤ v
  up : v ≤ P.slow h + (L * P.vsMax + 0.2 * (P.vsMax / P.vsMin) +
    0.2 * (P.vsMax / P.vsMin) * P.count h) * P.dt
  start : P.vEnter - 0.2 * passage P.rate h P.enter -
    (L * P.vsMax + 0.2 + 0.2 * (P.vsMax / P.vsMin) * P.count h) * P.dt ≤ v
  sup : ∀ w, h ≤ w → w ≤ P.enter → P.floor w - 0.2 * (passage P.rate h P.enter -
    passage P.rate w P.enter) - (L * P.vsMax + 0.2 + 0.2 * (P.vsMax / P.vsMin) * P.count h) * P.dt ≤ v

theorem SlowNear.init {P : DescentParams} {W L : ℝ} (hs : DescentSpeeds P W L) {v h : ℝ}
    (h0 : 0 ≤ h) (h1 : h ≤ P.enter) (h2 : P.enter - h ≤ P.vsMax * P.dt)
    (hv : |v - P.vEnter| ≤ L * (P.vsMax * P.dt)) :
    SlowNear P L (max (v - 0.2 * P.dt) (P.floor h)) h := by
  have hr := descent_rate hs.valid
  have hq := hr.ratio
  have hd := hs.valid.dt
  have hl := hs.L0
  have c0 := descent_count_nonneg P h
  have k : 0 ≤ 0.2 * (P.vsMax / P.vsMin) * P.count h * P.dt := by positivity
  have kq : 0 ≤ 0.2 * (P.vsMax / P.vsMin) * P.dt := by positivity
  have m1 := le_max_left (v - 0.2 * P.dt) (P.floor h)
  have m2 := le_max_right (v - 0.2 * P.dt) (P.floor h)
  have t0 := hr.nonneg h1
  have t1 : passage P.rate h P.enter ≤ P.vsMax / P.vsMin * P.dt := by
    refine (hr.upper h1).trans ?_
    rw [div_mul_eq_mul_div]
    exact div_le_div_of_nonneg_right h2 hr.pos.le
  have l0 : L * (P.enter - h) ≤ L * (P.vsMax * P.dt) := mul_le_mul_of_nonneg_left h2 hl
  have l1 : 0 ≤ L * (P.vsMax * P.dt) := le_trans (mul_nonneg hl (by linarith)) l0
  rw [abs_le] at hv
  refine ⟨m2, ?_, ?_, ?_⟩
  · refine max_le ?_ ?_
    · have := start_le_slowDown (v0 := P.vEnter) (a := 0.2) (T := fun u => passage P.rate u P.enter)
        (A := P.floor) h1
      have : P.vEnter - 0.2 * passage P.rate h P.enter ≤ P.slow h := this
      linarith
    · have : P.floor h ≤ P.slow h :=
        floor_le_slowDown (v0 := P.vEnter) (by norm_num) hs.passAnti hs.floorMono h1
      linarith
  · linarith
  · intro w w0 w1
    have := hs.lipA h h0 h1
    have := hs.floorMono w1
    have := hs.passAnti h w w0
    linarith

theorem SlowNear.next {P : DescentParams} {W L : ℝ} (hs : DescentSpeeds P W L) {v h : ℝ}
    (he : h ≤ P.enter) (hn : SlowNear P L v h) :
    SlowNear P L (max (v - 0.2 * P.dt) (P.floor (h - P.rate h * P.dt))) (h - P.rate h * P.dt) := by
  have hr := descent_rate hs.valid
  have hd := hs.valid.dt
  have hp := hr.pos.trans_le (hr.low h)
  have hh : h - P.rate h * P.dt ≤ h := by nlinarith
  have hq := hr.ratio
  have hm := hr.pos.trans_le hr.le
  have hl := hs.L0
  have st := descent_passage hs.valid h
  have add := hr.add (h - P.rate h * P.dt) h P.enter
  rw [abs_le] at st
  generalize h - P.rate h * P.dt = h' at *
  have m1 := le_max_left (v - 0.2 * P.dt) (P.floor h')
  have m2 := le_max_right (v - 0.2 * P.dt) (P.floor h')
  have c0 := descent_count_nonneg P h'
  have k : 0 ≤ 0.2 * (P.vsMax / P.vsMin) * P.count h' * P.dt := by positivity
  have k2 : 0 ≤ (L * P.vsMax + 0.2 * (P.vsMax / P.vsMin)) * P.dt := by positivity
  have k3 : 0 ≤ L * P.vsMax * P.dt := by positivity
  refine ⟨m2, ?_, ?_, ?_⟩
  · refine max_le ?_ ?_
    · have sl : P.slow h ≤ P.slow h' + 0.2 * (passage P.rate h' P.enter - passage P.rate h P.enter) :=
        slowDown_slope (by norm_num) hs.passAnti hs.floorMono hh he
      have := hn.up
      linarith
    · have : P.floor h' ≤ P.slow h' :=
        floor_le_slowDown (v0 := P.vEnter) (by norm_num) hs.passAnti hs.floorMono (hh.trans he)
      linarith
  · have := hn.start
    linarith
  · intro w w0 w1
    rcases le_total h w with c | c
    · have := hn.sup w c w1
      linarith
    · have := hn.low
      have := hs.floorMono c
      have := hs.passAnti h' w w0
      linarith

/-- Error of the speed per second of time step. -/
noncomputable def DescentParams.slack (P : DescentParams) (L : ℝ) : ℝ :=
  L * P.vsMax + 0.2 + 0.8 * (P.vsMax / P.vsMin)

theorem slack_nonneg {P : DescentParams} {W L : ℝ} (hs : DescentSpeeds P W L) : 0 ≤ P.slack L := by
  have hr := descent_rate hs.valid
  have hq := hr.ratio
  have hm := hr.pos.trans_le hr.le
  have hl := hs.L0
  unfold DescentParams.slack
  positivity

theorem SlowNear.close {P : DescentParams} {W L : ℝ} (hs : DescentSpeeds P W L) {v h : ℝ}
    (he : h ≤ P.enter) (hn : SlowNear P L v h) : |v - P.slow h| ≤ P.slack L * P.dt := by
  have hr := descent_rate hs.valid
  have hq := hr.ratio
  have hm := hr.pos.trans_le hr.le
  have hd := hs.valid.dt
  have hl := hs.L0
  have k : 0.2 * (P.vsMax / P.vsMin) * P.count h * P.dt ≤ 0.2 * (P.vsMax / P.vsMin) * 3 * P.dt :=
    mul_le_mul_of_nonneg_right (mul_le_mul_of_nonneg_left (descent_count_le P h) (by positivity)) hd.le
  have k2 : 0 ≤ P.vsMax / P.vsMin * P.dt := by positivity
  have low : P.slow h ≤ v + (L * P.vsMax + 0.2 + 0.2 * (P.vsMax / P.vsMin) * P.count h) * P.dt := by
    refine slowDown_le he ?_ fun w w0 w1 => ?_
    · have := hn.start
      linarith
    · have := hn.sup w w0 w1
      linarith
  have := hn.up
  unfold DescentParams.slack
  rw [abs_le]
  constructor <;> linarith

/-- Distance of the continuous descent. -/
noncomputable def DescentParams.distance (P : DescentParams) (u : ℝ) : ℝ :=
  mach2tas np P.mach P.hCr 0 * P.wait + flown P.speed P.rate u P.hCr

/-- Invariant until the first landing row. -/
structure DescentFar (P : DescentParams) (W L : ℝ) (x : Row) : Prop where
  time : DescentTime P x
  level : descentRank x.seg ≤ 1 → x.v = mach2tas np P.mach P.hCr 0 ∧ x.s = x.v * x.t
  high : 2 ≤ descentRank x.seg → descentRank x.seg ≤ 3 → P.enter < x.h ∧ x.v = P.speed x.h
  mid : descentRank x.seg = 4 → x.h ≤ P.enter ∧ SlowNear P L x.v x.h ∧ P.speed x.h = P.slow x.h
  app : descentRank x.seg = 5 → x.h ≤ 1000 * 0.3048 ∧ x.h ≤ P.enter ∧ x.v = P.vApp ∧
    P.speed x.h = P.vApp
  far : 2 ≤ descentRank x.seg → descentRank x.seg ≤ 5 → x.h ≤ P.hCr ∧
    |x.s - P.distance x.h| ≤ (W + P.spent W x.h + P.slack L * x.t) * P.dt
  land : x.seg = some .LD →
    |x.s - P.distance 0| ≤ (W * (8 + 4 * (P.vsMax / P.vsMin)) + P.slack L * x.t) * P.dt

theorem DescentFar.close {P : DescentParams} {W L : ℝ} {x : Row} (hx : DescentFar P W L x)
    (hs : DescentSpeeds P W L) (h2 : 2 ≤ descentRank x.seg) (h5 : descentRank x.seg ≤ 5) :
    |x.v - P.speed x.h| ≤ P.slack L * P.dt := by
  have e0 := mul_nonneg (slack_nonneg hs) hs.valid.dt.le
  rcases Nat.lt_or_ge 3 (descentRank x.seg) with c | c
  · rcases Nat.lt_or_ge 4 (descentRank x.seg) with c' | c'
    · obtain ⟨-, -, a, b⟩ := hx.app (by omega)
      rw [a, b, sub_self, abs_zero]
      exact e0
    · obtain ⟨a, b, d⟩ := hx.mid (by omega)
      rw [d]
      exact b.close hs a
  · rw [(hx.high h2 c).2, sub_self, abs_zero]
    exact e0

theorem descentFar_step {P : DescentParams} {W L : ℝ} (hs : DescentSpeeds P W L) {x : Row}
    (hx : DescentFar P W L x) (hne : x.seg ≠ some .LD) : DescentFar P W L (descentBody P x).1 := by
  have hP := hs.valid
  have hd := hP.dt
  have hr := descent_rate hP
  have hq := hr.ratio
  have time := descentTime_step hP hx.time hne
  have ft0 : (1000 * ft : ℝ) = 1000 * 0.3048 := by unfold ft; norm_num
  have h0 := hP.hCr
  have hc := hP.hCas
  have e0 := slack_nonneg hs
  have w0 : 0 ≤ W := hs.vApp.trans hs.appW
  -- what a pass does once the descent has begun
  have after : ¬ (x.t + P.dt < 60 ∧ P.withcr = true) → x.h + x.vs * P.dt ≤ P.hCr →
      (P.hMach < x.h + x.vs * P.dt ∨ P.hCas < x.h + x.vs * P.dt → P.enter < x.h + x.vs * P.dt) →
      (x.h + x.vs * P.dt ≤ P.enter → 1000 * 0.3048 < x.h + x.vs * P.dt →
        0 ≤ x.v - 0.2 * P.dt ∧
        SlowNear P L (max (x.v - 0.2 * P.dt) (P.floor (x.h + x.vs * P.dt))) (x.h + x.vs * P.dt)) →
      (0 < x.h + x.vs * P.dt → |x.s + x.v * P.dt - P.distance (x.h + x.vs * P.dt)| ≤
        (W + P.spent W (x.h + x.vs * P.dt) + P.slack L * (x.t + P.dt)) * P.dt) →
      (x.h + x.vs * P.dt ≤ 0 → |x.s + x.v * P.dt - P.distance 0| ≤
        (W * (8 + 4 * (P.vsMax / P.vsMin)) + P.slack L * (x.t + P.dt)) * P.dt) →
      DescentFar P W L (descentBody P x).1 := by
    intro c1 hw ne nm n1 nl
    have m0 := hP.hMach
    revert time
    unfold descentBody
    dsimp only
    rw [if_neg c1, ft0]
    split_ifs with c2 c3 c4 c5 c6
    · intro time
      refine ⟨time, by simp [descentRank], fun _ _ => ⟨ne (.inl c2), ?_⟩, by simp [descentRank],
        by simp [descentRank], fun _ _ => ⟨hw, n1 (m0.trans_lt c2)⟩, by simp⟩
      simp [DescentParams.speed, descentSpeed, c2]
    · intro time
      refine ⟨time, by simp [descentRank], fun _ _ => ⟨ne (.inr c3), ?_⟩, by simp [descentRank],
        by simp [descentRank], fun _ _ => ⟨hw, n1 (hc.trans_lt c3)⟩, by simp⟩
      simp [DescentParams.speed, descentSpeed, c2, c3, DescentParams.cap]
    iterate 2
      intro time
      have en : x.h + x.vs * P.dt ≤ P.enter := le_min (le_min (not_lt.1 c2) (not_lt.1 c3)) hw
      obtain ⟨v0, near⟩ := nm en c4
      have sp : P.speed (x.h + x.vs * P.dt) = P.slow (x.h + x.vs * P.dt) := by
        simp [DescentParams.speed, descentSpeed, c2, c3, c4]
      refine ⟨time, by simp [descentRank], by simp [descentRank], fun _ => ⟨en, ?_, sp⟩,
        by simp [descentRank], fun _ _ => ⟨hw, n1 (by linarith)⟩, by simp⟩
      have v0' : 0 ≤ x.v + -0.2 * P.dt := by linarith
      have cl := clamp_max (h := x.h + x.vs * P.dt) v0' hs.vApp
      simp only [c5, if_true, if_false] at cl
      have ee : x.v + -0.2 * P.dt = x.v - 0.2 * P.dt := by ring
      simp only
      rw [cl, ee]
      exact near
    · intro time
      have en : x.h + x.vs * P.dt ≤ P.enter := le_min (le_min (not_lt.1 c2) (not_lt.1 c3)) hw
      refine ⟨time, by simp [descentRank], by simp [descentRank], by simp [descentRank],
        fun _ => ⟨not_lt.1 c4, en, rfl, ?_⟩, fun _ _ => ⟨hw, n1 c6⟩, by simp⟩
      simp [DescentParams.speed, descentSpeed, c2, c3, c4]
    · intro time
      exact ⟨time, by simp [descentRank], by simp [descentRank], by simp [descentRank],
        by simp [descentRank], by simp [descentRank], fun _ => nl (not_lt.1 c6)⟩
  have sp8 : ∀ {h}, 0 ≤ h → 0 ≤ P.spent W h ∧ P.spent W h ≤ W * (7 + 3 * (P.vsMax / P.vsMin)) :=
    fun h => hs.spent_le h
  have wq : 0 ≤ W * (P.vsMax / P.vsMin) := by positivity
  rcases hx.time with ⟨k1, k2, k3, k4, k5⟩ | ⟨k1, k2, k3, k4, k5, k6⟩ | ⟨k, -⟩
  · obtain ⟨l1, l2⟩ := hx.level k1
    by_cases c : x.t + P.dt < 60 ∧ P.withcr = true
    · revert time
      unfold descentBody
      dsimp only
      rw [if_pos c]
      intro time
      refine ⟨time, fun _ => ?_, by simp [descentRank], by simp [descentRank], by simp [descentRank],
        by simp [descentRank], by simp⟩
      simp only [k2, k3, zero_mul, add_zero, true_and]
      rw [l2, l1]
      ring
    · have hw : P.wait ≤ x.t + P.dt := by
        unfold DescentParams.wait
        split_ifs with w
        · exact not_lt.1 fun h => c ⟨h, w⟩
        · linarith
      have e : x.h + x.vs * P.dt = P.hCr := by simp [k2, k3]
      have z : flown P.speed P.rate P.hCr P.hCr = 0 := intervalIntegral.integral_same
      have v0 : 0 ≤ x.v := l1 ▸ mach2tas_nonneg hs.mach _
      have v1 : x.v ≤ W := l1 ▸ hs.machLe h0
      have e1 : x.v * x.t + x.v * P.dt - x.v * P.wait = x.v * (x.t + P.dt - P.wait) := by ring
      have e2 : 0 ≤ x.v * (x.t + P.dt - P.wait) := mul_nonneg v0 (by linarith)
      have e3 : x.v * (x.t + P.dt - P.wait) ≤ W * P.dt :=
        mul_le_mul v1 (by linarith) (by linarith) (v0.trans v1)
      have e4 : 0 ≤ P.slack L * (x.t + P.dt) * P.dt := by positivity
      have base : |x.s + x.v * P.dt - P.distance P.hCr| ≤ W * P.dt := by
        unfold DescentParams.distance
        rw [z, add_zero, l2, ← l1, e1, abs_of_nonneg e2]
        exact e3
      rw [e] at after
      refine after c le_rfl ?_ ?_ ?_ ?_
      · intro i
        rcases i with i | i
        · exact ((min_le_left _ _).trans (min_le_left _ _)).trans_lt i
        · exact ((min_le_left _ _).trans (min_le_right _ _)).trans_lt i
      · intro i _
        have ee : P.enter = P.hCr := le_antisymm (min_le_right _ _) i
        have vm : 0.2 * P.dt ≤ x.v := by
          rw [l1]
          refine hs.slowM.trans ?_
          unfold mach2tas
          have := vsound_lower P.hCr
          have := hs.mach
          nlinarith
        have ve : P.vEnter = x.v := by
          rw [l1]
          exact if_pos (i.trans (min_le_left _ _))
        have m0 : 0 ≤ P.vsMax * P.dt := mul_nonneg (hr.pos.trans_le hr.le).le hd.le
        refine ⟨by linarith, SlowNear.init hs h0 i (by rw [ee, sub_self]; exact m0) ?_⟩
        rw [ve, sub_self, abs_zero]
        exact mul_nonneg hs.L0 m0
      · intro _
        have := mul_nonneg (sp8 h0).1 hd.le
        linarith
      · intro i
        have ee : P.hCr = 0 := le_antisymm i h0
        rw [ee] at base
        have := mul_nonneg wq hd.le
        have := mul_nonneg w0 hd.le
        linarith
  · obtain ⟨l1, l2⟩ := hx.far k1 k2
    have cl := hx.close hs k1 k2
    have hpos := hr.pos.trans_le (hr.low x.h)
    have c : ¬ (x.t + P.dt < 60 ∧ P.withcr = true) := by
      rintro ⟨c1, c2⟩
      simp only [DescentParams.wait, c2, if_true] at k5
      linarith
    have e : x.h + x.vs * P.dt = x.h - P.rate x.h * P.dt := by rw [k4]; ring
    have hh : x.h - P.rate x.h * P.dt ≤ x.h := by nlinarith
    have hm : P.rate x.h * P.dt ≤ P.vsMax * P.dt := mul_le_mul_of_nonneg_right (hr.high _) hd.le
    have cl' := mul_le_mul_of_nonneg_right cl hd.le
    rw [← abs_of_pos hd, ← abs_mul, abs_of_pos hd] at cl'
    rw [e] at after
    refine after c (hh.trans l1) ?_ ?_ ?_ ?_
    · intro i
      rcases i with i | i
      · exact ((min_le_left _ _).trans (min_le_left _ _)).trans_lt i
      · exact ((min_le_left _ _).trans (min_le_right _ _)).trans_lt i
    · intro i j
      have j0 : 0 ≤ x.h - P.rate x.h * P.dt := by linarith
      rcases Nat.lt_or_ge 3 (descentRank x.seg) with c | c
      · rcases Nat.lt_or_ge 4 (descentRank x.seg) with c' | c'
        · have := (hx.app (by omega)).1
          linarith
        · obtain ⟨a, b, -⟩ := hx.mid (by omega)
          refine ⟨?_, b.next hs a⟩
          have := b.low
          have := hs.floorMono k3.le
          have := hs.slowA
          linarith
      · obtain ⟨a, b⟩ := hx.high k1 c
        refine ⟨?_, SlowNear.init hs j0 i (by linarith) ?_⟩
        · rw [b]
          unfold DescentParams.speed descentSpeed
          have hen : P.hMach < x.h ∨ P.hCas < x.h := by
            unfold DescentParams.enter at a
            rcases min_lt_iff.1 a with a | a
            · exact min_lt_iff.1 a
            · exact absurd a (not_lt.2 l1)
          split_ifs with c2 c3
          · refine sub_nonneg.2 (hs.slowM.trans ?_)
            unfold mach2tas
            have := vsound_lower x.h
            have := hs.mach
            nlinarith
          · exact sub_nonneg.2 (hs.slowC.trans (hs.capMono k3.le))
          all_goals exact absurd hen (by tauto)
        · rw [b]
          refine (hs.lipE x.h a l1).trans (mul_le_mul_of_nonneg_left ?_ hs.L0)
          linarith
    · intro hp
      have st := hs.step hp.le
      unfold DescentParams.distance at l2 ⊢
      rw [hs.speed.add hr hp.le k3.le h0]
      rw [abs_le] at *
      constructor <;> linarith
    · intro hp
      have sp := mul_le_mul_of_nonneg_right (sp8 k3.le).2 hd.le
      have t1 : passage P.rate 0 x.h ≤ P.vsMax / P.vsMin * P.dt := by
        refine (hr.upper k3.le).trans ?_
        rw [div_mul_eq_mul_div]
        exact div_le_div_of_nonneg_right (by linarith) hr.pos.le
      obtain ⟨i1, i2⟩ := hs.speed.between hr le_rfl k3.le (lo := 0) (hi := W)
        (fun u hu => hs.speed.low u hu.1) fun u hu => hs.speed.high u hu.1
      have i3 : W * passage P.rate 0 x.h ≤ W * (P.vsMax / P.vsMin * P.dt) :=
        mul_le_mul_of_nonneg_left t1 w0
      have i4 := mul_le_mul_of_nonneg_right (hs.speed.high _ k3.le) hd.le
      have i5 := mul_nonneg (hs.speed.low _ k3.le) hd.le
      have i6 : W * P.dt * 1 ≤ W * P.dt * (P.vsMax / P.vsMin) :=
        mul_le_mul_of_nonneg_left hq (mul_nonneg w0 hd.le)
      unfold DescentParams.distance at l2 ⊢
      rw [hs.speed.add hr le_rfl k3.le h0]
      rw [abs_le] at *
      constructor <;> linarith
  · exact absurd k hne

/-- The descent is close to the continuous descent. -/
theorem descent_far {P : DescentParams} {W L : ℝ} (hs : DescentSpeeds P W L) {s : Row}
    {ss : List Row} (h : Trace (descentBody P) s ss) (hi : DescentFar P W L s) :
    ∀ pre x post, ss = pre ++ x :: post → (∀ y ∈ pre, y.seg ≠ some .LD) → DescentFar P W L x := by
  induction h with
  | @last s hb =>
    intro pre x post e _
    rcases pre with _ | ⟨y, pre⟩
    · cases e; exact hi
    · simp at e
  | @step s ss hb ht ih =>
    intro pre x post e hpre
    rcases pre with _ | ⟨y, pre⟩
    · cases e; exact hi
    · simp only [List.cons_append, List.cons.injEq] at e
      obtain ⟨rfl, e⟩ := e
      exact ih (descentFar_step hs hi (hpre _ (by simp))) pre x post e
        fun z hz => hpre z (by simp [hz])

/-! ## Landing -/

/-- What a landing row is. -/
def Landing (P : DescentParams) (x : Row) : Prop :=
  x.seg = some .LD → x.h = 0 ∧ x.vs = 0 ∧ (P.withcr = true → 60 ≤ x.t) ∧ 0 < x.v

theorem landing_step {P : DescentParams} {x : Row} (hb : (descentBody P x).2 = false) :
    Landing P (descentBody P x).1 := by
  revert hb
  unfold descentBody
  dsimp only
  split_ifs with c1 c2 c3 c4 c5 c6
  all_goals intro hb
  all_goals first
    | (intro e; simp at e; done)
    | skip
  simp only [decide_eq_false_iff_not, not_le] at hb
  exact fun _ => ⟨rfl, rfl, fun w => not_lt.1 fun h => c1 ⟨h, w⟩, hb⟩

/-- A pass from a landing row. -/
theorem landing_pass {P : DescentParams} (hP : P.Valid) {x : Row} (hx : Landing P x)
    (hl : x.seg = some .LD) :
    descentBody P x = (Row.mk (x.t + P.dt) 0 (x.s + x.v * P.dt) (x.v + P.aLnd * P.dt) 0 (some .LD),
      decide (x.v + P.aLnd * P.dt ≤ 0)) := by
  obtain ⟨h1, h2, h3, -⟩ := hx hl
  have hd := hP.dt
  have c1 : ¬ (x.t + P.dt < 60 ∧ P.withcr = true) := by
    rintro ⟨a, b⟩
    linarith [h3 b]
  have e : x.h + x.vs * P.dt = 0 := by simp [h1, h2]
  unfold descentBody
  dsimp only
  rw [if_neg c1, e, if_neg (not_lt.2 hP.hMach), if_neg (not_lt.2 hP.hCas),
    if_neg (not_lt.2 (by unfold ft; norm_num)), if_neg (lt_irrefl _)]

/-- The landing roll. -/
theorem landing_roll {P : DescentParams} (hP : P.Valid) {s : Row} {ss : List Row}
    (h : Trace (descentBody P) s ss) (hx : Landing P s) (hl : s.seg = some .LD) :
    (∀ x ∈ ss, x.seg = some .LD ∧ 0 < x.v ∧ x.t = s.t + (s.v - x.v) / -P.aLnd ∧
      x.s = s.s + (s.v ^ 2 - x.v ^ 2) / (2 * -P.aLnd) + (s.v - x.v) * P.dt / 2) ∧
    ∃ x, ss.getLast? = some x ∧ x.v ≤ -P.aLnd * P.dt := by
  have ha : P.aLnd ≠ 0 := hP.aLnd.ne
  induction h with
  | @last s hb =>
    refine ⟨?_, s, rfl, ?_⟩
    · intro x h
      obtain rfl := List.mem_singleton.1 h
      exact ⟨hl, (hx hl).2.2.2, by simp, by simp⟩
    · rw [landing_pass hP hx hl] at hb
      simp only [decide_eq_true_eq] at hb
      linarith
  | @step s ss hb ht ih =>
    have nx := landing_step hb
    rw [landing_pass hP hx hl] at nx ih
    obtain ⟨i1, x, i2, i3⟩ := ih nx rfl
    refine ⟨?_, x, ?_, i3⟩
    · intro y hy
      rcases List.mem_cons.1 hy with rfl | hy
      · exact ⟨hl, (hx hl).2.2.2, by simp, by simp⟩
      · obtain ⟨j1, j2, j3, j4⟩ := i1 y hy
        refine ⟨j1, j2, ?_, ?_⟩
        · rw [j3]
          field_simp
          ring
        · rw [j4]
          field_simp
          ring
    · cases ss with
      | nil => simp at i2
      | cons a l => rw [List.getLast?_cons_cons]; exact i2

end Verif.Gen
