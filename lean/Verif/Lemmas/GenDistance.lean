import Verif.Spec.GenDistance
import Verif.Lemmas.GenTime
import Verif.Lemmas.GenRows

/-!
# Euler steps of the distance against the continuous flight
-/

namespace Verif.Gen
open Verif Verif.Aero Verif.Spec MeasureTheory Set
open Verif.Props (cas2tas_ge)

/-! ## Integrals -/

/-- A speed between `0` and `W` above ground. -/
structure Speed (V : ℝ → ℝ) (W : ℝ) : Prop where
  meas : ∃ V', Measurable V' ∧ ∀ u, 0 ≤ u → V u = V' u
  low : ∀ u, 0 ≤ u → 0 ≤ V u
  high : ∀ u, 0 ≤ u → V u ≤ W

section
variable {V r : ℝ → ℝ} {m M W : ℝ} (hV : Speed V W) (hr : Rate r m M)
include hV hr

theorem Speed.integrable {a b : ℝ} (ha : 0 ≤ a) (hb : 0 ≤ b) :
    IntervalIntegrable (fun u => V u / r u) volume a b := by
  obtain ⟨V', h1, h2⟩ := hV.meas
  rw [intervalIntegrable_iff]
  have sub : ∀ u ∈ uIoc a b, 0 ≤ u := fun u hu => (le_min ha hb).trans hu.1.le
  have : IntegrableOn (fun u => V' u / r u) (uIoc a b) := by
    refine Measure.integrableOn_of_bounded (M := W / m) measure_Ioc_lt_top.ne
      (h1.div hr.meas).aestronglyMeasurable ?_
    refine (ae_restrict_iff' measurableSet_uIoc).2 (.of_forall fun u hu => ?_)
    have h0 := sub u hu
    have h3 := hr.pos
    have h4 := h3.trans_le (hr.low u)
    have h5 := hV.low u h0
    rw [← h2 u h0, Real.norm_eq_abs, abs_of_nonneg (by positivity)]
    exact div_le_div₀ (h5.trans (hV.high u h0)) (hV.high u h0) h3 (hr.low u)
  refine this.congr_fun (fun u hu => ?_) measurableSet_uIoc
  simp only [h2 u (sub u hu)]

theorem Speed.add {a b c : ℝ} (ha : 0 ≤ a) (hb : 0 ≤ b) (hc : 0 ≤ c) :
    flown V r a c = flown V r a b + flown V r b c :=
  (intervalIntegral.integral_add_adjacent_intervals (hV.integrable hr ha hb)
    (hV.integrable hr hb hc)).symm

/-- Bounds of the distance by bounds of the speed. -/
theorem Speed.between {a b lo hi : ℝ} (ha : 0 ≤ a) (h : a ≤ b) (hl : ∀ u ∈ Icc a b, lo ≤ V u)
    (hh : ∀ u ∈ Icc a b, V u ≤ hi) :
    lo * passage r a b ≤ flown V r a b ∧ flown V r a b ≤ hi * passage r a b := by
  unfold passage flown
  rw [← intervalIntegral.integral_const_mul, ← intervalIntegral.integral_const_mul]
  constructor
  · refine intervalIntegral.integral_mono_on h ((hr.integrable a b).const_mul lo)
      (hV.integrable hr ha (ha.trans h)) fun u hu => ?_
    rw [mul_one_div]
    exact div_le_div_of_nonneg_right (hl u hu) (hr.pos.trans_le (hr.low u)).le
  · refine intervalIntegral.integral_mono_on h (hV.integrable hr ha (ha.trans h))
      ((hr.integrable a b).const_mul hi) fun u hu => ?_
    rw [mul_one_div]
    exact div_le_div_of_nonneg_right (hh u hu) (hr.pos.trans_le (hr.low u)).le

theorem Speed.nonneg {a b : ℝ} (ha : 0 ≤ a) (h : a ≤ b) : 0 ≤ flown V r a b := by
  have := (hV.between hr ha h (lo := 0) (hi := W) (fun u hu => hV.low u (ha.trans hu.1)) fun u hu => hV.high u (ha.trans hu.1)).1
  linarith

/-- A step over which the rate is constant and the speed monotone. -/
theorem Speed.smooth {a b dt : ℝ} (ha : 0 ≤ a) (h : a ≤ b) (hp : passage r a b = dt)
    (hm : MonotoneOn V (Icc a b) ∨ AntitoneOn V (Icc a b)) :
    |V a * dt - flown V r a b| ≤ |V b - V a| * dt := by
  have la := left_mem_Icc.2 h
  have lb := right_mem_Icc.2 h
  rcases hm with hm | hm
  · obtain ⟨h1, h2⟩ := hV.between hr ha h (fun u hu => hm la hu hu.1) (fun u hu => hm hu lb hu.2)
    rw [hp] at h1 h2
    have := hm la lb h
    rw [abs_of_nonneg (sub_nonneg.2 this), abs_le]
    constructor <;> nlinarith
  · obtain ⟨h1, h2⟩ := hV.between hr ha h (fun u hu => hm hu lb hu.2) (fun u hu => hm la hu hu.1)
    rw [hp] at h1 h2
    have := hm la lb h
    rw [abs_of_nonpos (sub_nonpos.2 this), abs_le]
    constructor <;> nlinarith

/-- Any step. -/
theorem Speed.rough {a b dt : ℝ} (ha : 0 ≤ a) (h : a ≤ b) (hd : 0 ≤ dt) (hb : b - a ≤ M * dt) :
    |V a * dt - flown V r a b| ≤ W * (M / m) * dt := by
  obtain ⟨h1, h2⟩ := hV.between hr ha h (lo := 0) (hi := W) (fun u hu => hV.low u (ha.trans hu.1))
    fun u hu => hV.high u (ha.trans hu.1)
  have hq := hr.ratio
  have v0 := hV.low a ha
  have v1 := hV.high a ha
  have w0 := v0.trans v1
  have h3 : passage r a b ≤ M / m * dt := by
    refine (hr.upper h).trans ?_
    rw [div_mul_eq_mul_div]
    exact div_le_div_of_nonneg_right hb hr.pos.le
  have h4 : W * passage r a b ≤ W * (M / m * dt) := mul_le_mul_of_nonneg_left h3 w0
  have h5 : V a * dt ≤ W * (M / m * dt) := by
    refine mul_le_mul v1 ?_ hd w0
    nlinarith
  have : 0 ≤ V a * dt := by positivity
  rw [mul_assoc, abs_le]
  constructor <;> linarith
end

/-! ## The accelerating profile -/

section
variable {v0 a : ℝ} {T C : ℝ → ℝ} (ha : 0 ≤ a) (hT : ∀ u w, u ≤ w → T u ≤ T w)
  (hC : Monotone C) (hC0 : ∀ u, 0 ≤ C u)
include ha hT hC0

theorem speedUp_bdd (u : ℝ) : BddBelow (range fun w : Icc (0:ℝ) u => C w + a * (T u - T w)) := by
  refine ⟨0, ?_⟩
  rintro _ ⟨w, rfl⟩
  have := hC0 w
  have := mul_nonneg ha (sub_nonneg.2 (hT w u w.2.2))
  simp only
  linarith

theorem speedUp_le {u w : ℝ} (hw : 0 ≤ w) (hwu : w ≤ u) :
    speedUp v0 a T C u ≤ C w + a * (T u - T w) :=
  (min_le_right _ _).trans (ciInf_le (speedUp_bdd ha hT hC0 u) ⟨w, hw, hwu⟩)

theorem speedUp_le_cap {u : ℝ} (hu : 0 ≤ u) : speedUp v0 a T C u ≤ C u := by
  have := speedUp_le (v0 := v0) ha hT hC0 hu le_rfl
  simpa using this

omit ha hT hC0 in
theorem speedUp_start (u : ℝ) : speedUp v0 a T C u ≤ v0 + a * T u := min_le_left _ _

omit ha hT hC0 in
theorem le_speedUp {u x : ℝ} (hu : 0 ≤ u) (h1 : x ≤ v0 + a * T u)
    (h2 : ∀ w, 0 ≤ w → w ≤ u → x ≤ C w + a * (T u - T w)) : x ≤ speedUp v0 a T C u := by
  have : Nonempty (Icc (0:ℝ) u) := ⟨⟨0, le_rfl, hu⟩⟩
  exact le_min h1 (le_ciInf fun w => h2 w w.2.1 w.2.2)

/-- No faster than the allowed acceleration. -/
theorem speedUp_slope {u w : ℝ} (hu : 0 ≤ u) (h : u ≤ w) :
    speedUp v0 a T C w ≤ speedUp v0 a T C u + a * (T w - T u) := by
  rw [← sub_le_iff_le_add]
  refine le_speedUp hu ?_ fun z hz hzu => ?_
  · have := speedUp_start (C := C) (v0 := v0) (T := T) (a := a) w
    linarith
  · have := speedUp_le (v0 := v0) ha hT hC0 hz (hzu.trans h)
    linarith

include hC in
theorem speedUp_mono {u w : ℝ} (hu : 0 ≤ u) (h : u ≤ w) :
    speedUp v0 a T C u ≤ speedUp v0 a T C w := by
  refine le_speedUp (hu.trans h) ?_ fun z hz hzw => ?_
  · have := speedUp_start (C := C) (v0 := v0) (T := T) (a := a) u
    nlinarith [hT u w h]
  · rcases le_total z u with c | c
    · have := speedUp_le (v0 := v0) ha hT hC0 hz c
      nlinarith [hT u w h]
    · have := speedUp_le_cap (v0 := v0) ha hT hC0 hu
      have := hC c
      nlinarith [hT z w hzw]

theorem speedUp_nonneg (h0 : 0 ≤ v0) {u : ℝ} (hu : 0 ≤ u) (hTu : 0 ≤ T u) :
    0 ≤ speedUp v0 a T C u := by
  refine le_speedUp hu (by positivity) fun z hz hzu => ?_
  have := hC0 z
  have := mul_nonneg ha (sub_nonneg.2 (hT z u hzu))
  linarith

end

/-! ## Climb -/

theorem Rate.mono {r : ℝ → ℝ} {m M : ℝ} (hr : Rate r m M) {u w : ℝ} (h : u ≤ w) :
    passage r 0 u ≤ passage r 0 w := by
  rw [hr.add 0 u w]
  linarith [hr.nonneg h]

theorem cas2tas_mono {v : ℝ} (hv : 0 ≤ v) : Monotone fun h => cas2tas np v h 0 := by
  rcases hv.eq_or_lt with rfl | hv
  · intro a b _
    simp only [(Props.C08_increasing _ 0).1.2.2.2.2.2.1, le_refl]
  · exact ((Props.C10_climb_at_constant_speed 0).1 v hv).monotone

theorem mach2tas_anti {m : ℝ} (hm : 0 ≤ m) : Antitone fun h => mach2tas np m h 0 := by
  intro a b h
  simp only [mach2tas]
  refine mul_le_mul_of_nonneg_left ?_ hm
  rw [vsound_eq, vsound_eq]
  exact Real.sqrt_le_sqrt (mul_le_mul_of_nonneg_left (temp_anti 0 h) (by norm_num))

/-- Speed of constant CAS. -/
noncomputable def ClimbParams.cap (P : ClimbParams) (u : ℝ) : ℝ := cas2tas np P.vcas u 0

/-- Speed before constant CAS. -/
noncomputable def ClimbParams.acc (P : ClimbParams) : ℝ → ℝ :=
  speedUp P.vTof 0.5 (passage P.rate 0) P.cap

/-- Speed of the continuous climb. -/
noncomputable def ClimbParams.speed (P : ClimbParams) : ℝ → ℝ :=
  climbSpeed P.acc P.cap (fun u => mach2tas np P.mach u 0) P.hCas P.hMach

/-- What the theorems ask of the speeds. -/
structure ClimbSpeeds (P : ClimbParams) (W : ℝ) : Prop where
  valid : P.Valid
  v0 : 0 ≤ P.vTof
  cas : (1 + 1e-8) * P.vTof ≤ P.vcas
  mach : P.vTof ≤ 295 * P.mach
  capW : P.cap (max (1500 * 0.3048) (max P.hCas P.hMach)) ≤ W
  machW : 340.3 * P.mach ≤ W

namespace ClimbSpeeds
variable {P : ClimbParams} {W : ℝ} (h : ClimbSpeeds P W)
include h

theorem vcas : 0 ≤ P.vcas := by
  have := h.v0
  have := h.cas
  nlinarith

theorem capMono : Monotone P.cap := cas2tas_mono h.vcas

omit h in
theorem cap0 (u : ℝ) : 0 ≤ P.cap u := cas2tas_nonneg _ _

theorem passMono : ∀ u w, u ≤ w → passage P.rate 0 u ≤ passage P.rate 0 w :=
  fun _ _ => (climb_rate h.valid).mono

theorem pass0 {u : ℝ} (hu : 0 ≤ u) : 0 ≤ passage P.rate 0 u := (climb_rate h.valid).nonneg hu

theorem accMono : MonotoneOn P.acc (Ici 0) := fun _ hu _ _ huw =>
  speedUp_mono (by norm_num) h.passMono h.capMono cap0 hu huw

theorem acc0 {u : ℝ} (hu : 0 ≤ u) : 0 ≤ P.acc u :=
  speedUp_nonneg (by norm_num) h.passMono cap0 h.v0 hu (h.pass0 hu)

theorem accCap {u : ℝ} (hu : 0 ≤ u) : P.acc u ≤ P.cap u :=
  speedUp_le_cap (by norm_num) h.passMono cap0 hu

theorem speed : Speed P.speed W where
  meas := by
    refine ⟨climbSpeed (fun u => P.acc (max u 0)) P.cap (fun u => mach2tas np P.mach u 0) P.hCas
      P.hMach, ?_, ?_⟩
    · have m1 : Measurable fun u => P.acc (max u 0) := by
        refine Monotone.measurable fun a b hab => h.accMono ?_ ?_ ?_
        · exact mem_Ici.2 (le_max_right _ _)
        · exact mem_Ici.2 (le_max_right _ _)
        · exact max_le_max hab le_rfl
      have m2 : Measurable P.cap := h.capMono.measurable
      have m3 : Measurable fun u => mach2tas np P.mach u 0 := (mach2tas_anti h.valid.mach).measurable
      unfold climbSpeed
      exact Measurable.ite measurableSet_Iio m1 (Measurable.ite measurableSet_Iio m1
        (Measurable.ite measurableSet_Iio m2 m3))
    · intro u hu
      simp only [ClimbParams.speed, climbSpeed, max_eq_left hu]
  low u hu := by
    unfold ClimbParams.speed climbSpeed
    split_ifs
    · exact h.acc0 hu
    · exact h.acc0 hu
    · exact cap0 u
    · exact mach2tas_nonneg h.valid.mach u
  high u hu := by
    have le : ∀ {b}, u ≤ b → b ≤ max (1500 * 0.3048) (max P.hCas P.hMach) → P.cap u ≤ W :=
      fun h1 h2 => (h.capMono (h1.trans h2)).trans h.capW
    unfold ClimbParams.speed climbSpeed
    split_ifs with c1 c2 c3
    · exact (h.accCap hu).trans (le c1.le (by simp))
    · exact (h.accCap hu).trans (le c2.le (by simp))
    · exact le c3.le (by simp)
    · refine le_trans ?_ h.machW
      simp only [mach2tas]
      rw [mul_comm]
      exact mul_le_mul_of_nonneg_right (vsound_sea hu) h.valid.mach

end ClimbSpeeds

/-- Bound of the error of the distance at an altitude. -/
noncomputable def ClimbParams.spent (P : ClimbParams) (W u : ℝ) : ℝ :=
  W * (2 + P.vsMax / P.vsMin) * P.count u +
    if u < 1500 * 0.3048 ∨ u < P.hCas ∨ u < P.hMach then P.speed u else -P.speed u

/-- One step of the distance. -/
theorem ClimbSpeeds.step {P : ClimbParams} {W : ℝ} (hs : ClimbSpeeds P W) {h : ℝ} (h0 : 0 ≤ h) :
    |P.speed h * P.dt - flown P.speed P.rate h (h + P.rate h * P.dt)| ≤
      (P.spent W (h + P.rate h * P.dt) - P.spent W h) * P.dt := by
  have hr := climb_rate hs.valid
  have hV := hs.speed
  have hd := hs.valid.dt
  have hp := hr.pos.trans_le (hr.low h)
  have hh : h ≤ h + P.rate h * P.dt := by nlinarith
  have hq := hr.ratio
  have a0 := hV.low h h0
  have a1 := hV.high h h0
  have b0 := hV.low _ (h0.trans hh)
  have b1 := hV.high _ (h0.trans hh)
  have w0 := a0.trans a1
  rcases passed_three (x := 1500 * 0.3048) (y := P.hCas) (z := P.hMach) hh with ⟨c1, c2, c3, e⟩ | e
  · have iff : ∀ {b u}, (b ≤ h ∨ h + P.rate h * P.dt < b) → u ∈ Icc h (h + P.rate h * P.dt) →
        (u < b ↔ h < b) := fun c hu =>
      ⟨fun i => hu.1.trans_lt i, fun i => hu.2.trans_lt (c.resolve_left (not_le.2 i))⟩
    have pe : passage P.rate h (h + P.rate h * P.dt) = P.dt := by
      rw [Rate.const (c := P.rate h) hh]
      · field_simp
        ring
      · intro u hu
        have hu := Ioo_subset_Icc_self hu
        unfold ClimbParams.rate climbRate
        simp only [iff c1 hu, iff c2 hu, iff c3 hu]
    have sp : ∀ u ∈ Icc h (h + P.rate h * P.dt), P.speed u = if h < 1500 * 0.3048 then P.acc u else
        if h < P.hCas then P.acc u else if h < P.hMach then P.cap u else mach2tas np P.mach u 0 := by
      intro u hu
      unfold ClimbParams.speed climbSpeed
      simp only [iff c1 hu, iff c2 hu, iff c3 hu]
    have re := right_mem_Icc.2 hh
    have co : P.count (h + P.rate h * P.dt) = P.count h := by
      unfold ClimbParams.count
      linarith
    unfold ClimbParams.spent
    rw [co]
    simp only [iff c1 re, iff c2 re, iff c3 re]
    by_cases cc : h < 1500 * 0.3048 ∨ h < P.hCas ∨ h < P.hMach
    · simp only [cc, if_true]
      have mono : MonotoneOn P.speed (Icc h (h + P.rate h * P.dt)) := by
        intro u hu w hw huw
        rw [sp u hu, sp w hw]
        have z := h0.trans hu.1
        split_ifs with i1 i2 i3
        · exact hs.accMono z (z.trans huw) huw
        · exact hs.accMono z (z.trans huw) huw
        · exact hs.capMono huw
        · simp [i1, i2, i3] at cc
      have := hV.smooth hr h0 hh pe (.inl mono)
      rw [abs_of_nonneg (sub_nonneg.2 (mono (left_mem_Icc.2 hh) re hh))] at this
      linarith
    · simp only [cc, if_false]
      simp only [not_or] at cc
      have anti : AntitoneOn P.speed (Icc h (h + P.rate h * P.dt)) := by
        intro u hu w hw huw
        rw [sp u hu, sp w hw]
        simp only [cc, if_false]
        exact mach2tas_anti hs.valid.mach huw
      have := hV.smooth hr h0 hh pe (.inr anti)
      rw [abs_of_nonpos (sub_nonpos.2 (anti (left_mem_Icc.2 hh) re hh))] at this
      linarith
  · have := hV.rough hr h0 hh hd.le (by nlinarith [hr.high h])
    refine this.trans (mul_le_mul_of_nonneg_right ?_ hd.le)
    have e' : 1 ≤ P.count (h + P.rate h * P.dt) - P.count h := by
      unfold ClimbParams.count
      linarith
    have k : W * (2 + P.vsMax / P.vsMin) * 1 ≤
        W * (2 + P.vsMax / P.vsMin) * (P.count (h + P.rate h * P.dt) - P.count h) :=
      mul_le_mul_of_nonneg_left e' (by positivity)
    unfold ClimbParams.spent
    split_ifs <;> linarith

theorem ClimbSpeeds.spent_le {P : ClimbParams} {W : ℝ} (hs : ClimbSpeeds P W) {h : ℝ} (h0 : 0 ≤ h) :
    0 ≤ P.spent W h ∧ P.spent W h ≤ W * (7 + 3 * (P.vsMax / P.vsMin)) := by
  have hV := hs.speed
  have a0 := hV.low h h0
  have a1 := hV.high h h0
  have w0 := a0.trans a1
  have hq := (climb_rate hs.valid).ratio
  have k : W * (2 + P.vsMax / P.vsMin) * P.count h ≤ W * (2 + P.vsMax / P.vsMin) * 3 :=
    mul_le_mul_of_nonneg_left (count_le P h) (by positivity)
  have n1 := passed_nonneg (1500 * 0.3048) h
  have n2 := passed_nonneg P.hCas h
  unfold ClimbParams.spent
  split_ifs with c
  · have n3 := passed_nonneg P.hMach h
    have : 0 ≤ W * (2 + P.vsMax / P.vsMin) * P.count h := by
      refine mul_nonneg (by positivity) ?_
      unfold ClimbParams.count
      linarith
    constructor <;> linarith
  · simp only [not_or, not_lt] at c
    have n3 : passed P.hMach h = 1 := by simp [passed, c]
    have : W * (2 + P.vsMax / P.vsMin) * 1 ≤ W * (2 + P.vsMax / P.vsMin) * P.count h := by
      refine mul_le_mul_of_nonneg_left ?_ (by positivity)
      unfold ClimbParams.count
      linarith
    have : 0 ≤ W * (P.vsMax / P.vsMin) := by positivity
    constructor <;> linarith

/-- The limitation to the calibrated airspeed is a minimum. -/
theorem clamp_eq {v c h : ℝ} (hv : 0 ≤ v) (hc : 0 ≤ c) :
    (if c ≤ tas2cas np v h 0 then cas2tas np c h 0 else v) = min v (cas2tas np c h 0) := by
  have e := (Props.C07_round_trips c h 0).2.2.2.2.1
  rw [abs_of_nonneg hc] at e
  have mono := (Props.C08_increasing h 0).2 (tas2cas np) (by simp)
  split_ifs with i
  · rw [min_eq_right]
    by_contra hn
    have := mono _ _ hv (not_le.1 hn)
    rw [e] at this
    linarith
  · rw [min_eq_left]
    by_contra hn
    have := mono _ _ (cas2tas_nonneg c h) (not_le.1 hn)
    rw [e] at this
    linarith

/-- A speed close to the accelerating profile. -/
structure AccNear (P : ClimbParams) (v h : ℝ) : Prop where
  low : P.acc h - 0.5 * (P.vsMax / P.vsMin) * P.count h * P.dt ≤ v
  cap : v ≤ P.cap h
  start : v ≤ P.vTof + 0.5 * passage P.rate 0 h +
    (P.aTof + 0.5 + 0.5 * (P.vsMax / P.vsMin) * P.count h) * P.dt
  up : ∀ w, 0 ≤ w → w ≤ h → v ≤ P.cap w + 0.5 * (passage P.rate 0 h - passage P.rate 0 w) +
    (0.5 + 0.5 * (P.vsMax / P.vsMin) * P.count h) * P.dt

theorem count_nonneg (P : ClimbParams) (h : ℝ) : 0 ≤ P.count h := by
  have := passed_nonneg (1500 * 0.3048) h
  have := passed_nonneg P.hCas h
  have := passed_nonneg P.hMach h
  unfold ClimbParams.count
  linarith

theorem AccNear.init {P : ClimbParams} {W : ℝ} (hs : ClimbSpeeds P W) {v : ℝ} (h1 : P.vTof ≤ v)
    (h2 : v < P.vTof + P.aTof * P.dt) (hc : P.vTof ≤ P.cap 0) :
    AccNear P (min (v + 0.5 * P.dt) (P.cap 0)) 0 := by
  have hq := (climb_rate hs.valid).ratio
  have hd := hs.valid.dt
  have c0 := count_nonneg P 0
  have k : 0 ≤ 0.5 * (P.vsMax / P.vsMin) * P.count 0 * P.dt := by positivity
  have z : passage P.rate 0 0 = 0 := intervalIntegral.integral_same
  have m1 := min_le_left (v + 0.5 * P.dt) (P.cap 0)
  have m2 := min_le_right (v + 0.5 * P.dt) (P.cap 0)
  refine ⟨?_, m2, ?_, ?_⟩
  · have := speedUp_start (v0 := P.vTof) (a := 0.5) (T := passage P.rate 0) (C := P.cap) 0
    rw [z] at this
    have : P.acc 0 ≤ P.vTof := by unfold ClimbParams.acc; linarith
    have : P.vTof ≤ min (v + 0.5 * P.dt) (P.cap 0) := le_min (by linarith) hc
    linarith
  · rw [z]
    linarith
  · intro w w0 w1
    obtain rfl := le_antisymm w1 w0
    rw [sub_self]
    linarith

theorem AccNear.next {P : ClimbParams} {W : ℝ} (hs : ClimbSpeeds P W) {v h : ℝ} (h0 : 0 ≤ h)
    (hn : AccNear P v h) : AccNear P (min (v + 0.5 * P.dt) (P.cap (h + P.rate h * P.dt)))
      (h + P.rate h * P.dt) := by
  have hr := climb_rate hs.valid
  have hd := hs.valid.dt
  have hp := hr.pos.trans_le (hr.low h)
  have hh : h ≤ h + P.rate h * P.dt := by nlinarith
  have hq := hr.ratio
  have st := climb_passage hs.valid h
  have add := hr.add 0 h (h + P.rate h * P.dt)
  rw [abs_le] at st
  generalize h + P.rate h * P.dt = h' at *
  have m1 := min_le_left (v + 0.5 * P.dt) (P.cap h')
  have m2 := min_le_right (v + 0.5 * P.dt) (P.cap h')
  have c0 := count_nonneg P h'
  have k : 0 ≤ 0.5 * (P.vsMax / P.vsMin) * P.count h' * P.dt := by positivity
  refine ⟨?_, m2, ?_, ?_⟩
  · refine le_min ?_ ?_
    · have sl : P.acc h' ≤ P.acc h + 0.5 * (passage P.rate 0 h' - passage P.rate 0 h) :=
        speedUp_slope (by norm_num) hs.passMono ClimbSpeeds.cap0 h0 hh
      have := hn.low
      linarith
    · have := hs.accCap (h0.trans hh)
      linarith
  · have := hn.start
    linarith
  · intro w w0 w1
    rcases le_total w h with c | c
    · have := hn.up w w0 c
      linarith
    · have := hn.cap
      have := hs.capMono c
      have := hs.passMono w h' w1
      linarith

theorem AccNear.close {P : ClimbParams} {W : ℝ} (hs : ClimbSpeeds P W) {v h : ℝ} (h0 : 0 ≤ h)
    (hn : AccNear P v h) :
    |v - P.acc h| ≤ (P.aTof + 0.5 + 1.5 * (P.vsMax / P.vsMin)) * P.dt := by
  have hq := (climb_rate hs.valid).ratio
  have hd := hs.valid.dt
  have ha := hs.valid.aTof
  have c0 := count_nonneg P h
  have k : 0.5 * (P.vsMax / P.vsMin) * P.count h * P.dt ≤ 0.5 * (P.vsMax / P.vsMin) * 3 * P.dt :=
    mul_le_mul_of_nonneg_right (mul_le_mul_of_nonneg_left (count_le P h) (by positivity)) hd.le
  have ad : 0 ≤ P.aTof * P.dt := by positivity
  have up : v - (P.aTof + 0.5 + 0.5 * (P.vsMax / P.vsMin) * P.count h) * P.dt ≤ P.acc h := by
    refine le_speedUp h0 ?_ fun w w0 w1 => ?_
    · have := hn.start
      linarith
    · have := hn.up w w0 w1
      linarith
  have := hn.low
  rw [abs_le]
  constructor <;> linarith

/-- The continuous climb: distance when an altitude is reached. -/
noncomputable def ClimbParams.distance (P : ClimbParams) (u : ℝ) : ℝ :=
  P.vTof ^ 2 / (2 * P.aTof) + flown P.speed P.rate 0 u

/-- Invariant until the first level row. -/
structure ClimbFar (P : ClimbParams) (W : ℝ) (x : ClimbState) : Prop where
  time : ClimbTime P x
  roll : climbRank x.seg ≤ 1 → x.s = x.v ^ 2 / (2 * P.aTof) - x.v * P.dt / 2
  acc : 2 ≤ climbRank x.seg → x.h < 1500 * 0.3048 ∨ x.h < P.hCas → AccNear P x.v x.h
  exact : 2 ≤ climbRank x.seg → ¬ (x.h < 1500 * 0.3048 ∨ x.h < P.hCas) → x.v = P.speed x.h
  far : 2 ≤ climbRank x.seg → 0 ≤ x.t ∧ |x.s - P.distance x.h| ≤ (1.5 * P.vTof + P.aTof * P.dt +
    P.spent W x.h + (P.aTof + 0.5 + 1.5 * (P.vsMax / P.vsMin)) * x.t) * P.dt

theorem ClimbFar.close {P : ClimbParams} {W : ℝ} (hs : ClimbSpeeds P W) {x : ClimbState}
    (hx : ClimbFar P W x) (hk : 2 ≤ climbRank x.seg) (h0 : 0 ≤ x.h) :
    |x.v - P.speed x.h| ≤ (P.aTof + 0.5 + 1.5 * (P.vsMax / P.vsMin)) * P.dt := by
  have hq := (climb_rate hs.valid).ratio
  have hd := hs.valid.dt
  have ha := hs.valid.aTof
  by_cases c : x.h < 1500 * 0.3048 ∨ x.h < P.hCas
  · have e : P.speed x.h = P.acc x.h := by
      unfold ClimbParams.speed climbSpeed
      rcases c with c | c <;> simp [c]
    rw [e]
    exact (hx.acc hk c).close hs h0
  · rw [hx.exact hk c, sub_self, abs_zero]
    positivity

/-- What a pass sets once the aircraft has lifted off. -/
theorem climb_fast {P : ClimbParams} {W : ℝ} (hs : ClimbSpeeds P W) {x : ClimbState}
    (hv : P.vTof ≤ x.v) :
    2 ≤ climbRank (climbBody P x).1.seg ∧ (climbBody P x).1.t = x.t + P.dt ∧
    (climbBody P x).1.s = x.s + x.v * P.dt ∧ (climbBody P x).1.h = x.h + x.vs * P.dt ∧
    ((climbBody P x).1.h < 1500 * 0.3048 ∨ (climbBody P x).1.h < P.hCas →
      (climbBody P x).1.v = min (x.v + 0.5 * P.dt) (P.cap (climbBody P x).1.h)) ∧
    (¬ ((climbBody P x).1.h < 1500 * 0.3048 ∨ (climbBody P x).1.h < P.hCas) →
      (climbBody P x).1.v = P.speed (climbBody P x).1.h) := by
  have ft0 : (1500 * ft : ℝ) = 1500 * 0.3048 := by unfold ft; norm_num
  have hd := hs.valid.dt
  have v5 : 0 ≤ x.v + 0.5 * P.dt := by
    have := hs.v0
    linarith
  have ce := fun h => clamp_eq (h := h) v5 hs.vcas
  unfold climbBody
  dsimp only
  rw [if_neg (not_lt.2 hv), ft0]
  simp only [ce]
  split_ifs with c2 c4 c6 c7 c8
  all_goals
    refine ⟨by simp [climbRank], rfl, rfl, rfl, ?_, ?_⟩
    · first
        | exact fun _ => rfl
        | exact fun i => (i.elim c2 c4).elim
    · intro i
      simp only [not_or] at i
      first
        | exact absurd c2 i.1
        | exact absurd c4 i.2
        | (simp only [ClimbParams.speed, climbSpeed, ClimbParams.cap, *, if_true, if_false])

theorem climbFar_step {P : ClimbParams} {W : ℝ} (hs : ClimbSpeeds P W) {x : ClimbState}
    (hx : ClimbFar P W x) (hne : x.seg ≠ some .CR) : ClimbFar P W (climbBody P x).1 := by
  have hP := hs.valid
  have hd := hP.dt
  have ha := hP.aTof
  have hr := climb_rate hP
  have hq := hr.ratio
  have time := climbTime_step hP hs.v0 hs.cas hs.mach hx.time hne
  rcases hx.time with ⟨k1, k2, k3, k4, k5, k6⟩ | ⟨k1, k2, k3, k7, k4, k5, k6⟩ | ⟨k, -⟩
  · have roll := hx.roll k1
    by_cases hv : x.v < P.vTof
    · have e : (climbBody P x).1 = { t := x.t + P.dt, s := x.s + x.v * P.dt, h := x.h + x.vs * P.dt, v := x.v + P.aTof * P.dt, vs := 0, seg := some .TO, tcr := x.tcr } := by
        unfold climbBody
        dsimp only
        rw [if_pos hv]
      rw [e] at time ⊢
      refine ⟨time, ?_, by simp [climbRank], by simp [climbRank], by simp [climbRank]⟩
      intro _
      simp only [roll]
      field_simp
      ring
    · have hv := not_lt.1 hv
      obtain ⟨f1, f2, f3, f4, f5, f6⟩ := climb_fast hs hv
      rw [k2, k3, zero_mul, add_zero] at f4
      rw [f4] at f5 f6
      have low : (0:ℝ) < 1500 * 0.3048 := by norm_num
      have v2 : x.v < P.vTof + P.aTof * P.dt := by
        rw [k4]
        have : P.aTof * x.t < P.aTof * (P.vTof / P.aTof + P.dt) := mul_lt_mul_of_pos_left k6 ha
        have e : P.aTof * (P.vTof / P.aTof + P.dt) = P.vTof + P.aTof * P.dt := by field_simp
        linarith
      have vc : P.vTof ≤ P.cap 0 := by
        have := cas2tas_ge (v := P.vcas) hs.vcas (le_refl (0:ℝ))
        have h3 : (1 + 1e-8) * P.vTof ≤ (1 + 1e-8) * cas2tas np P.vcas 0 0 := hs.cas.trans this
        exact le_of_mul_le_mul_left h3 (by norm_num)
      refine ⟨time, fun i => by omega, ?_, ?_, ?_⟩
      · intro _ _
        rw [f4, f5 (.inl low)]
        exact AccNear.init hs hv v2 vc
      · intro _ i
        rw [f4] at i
        exact absurd (.inl low) i
      · intro _
        rw [f2, f3, f4]
        refine ⟨by linarith, ?_⟩
        have z : flown P.speed P.rate 0 0 = 0 := intervalIntegral.integral_same
        unfold ClimbParams.distance
        rw [z, roll, add_zero]
        have s0 := (hs.spent_le (le_refl (0:ℝ))).1
        have v0 := hs.v0
        have e1 : x.v ^ 2 / (2 * P.aTof) - P.vTof ^ 2 / (2 * P.aTof) =
            (x.v - P.vTof) * (x.v + P.vTof) / (2 * P.aTof) := by ring
        have e2 : (x.v - P.vTof) * (x.v + P.vTof) / (2 * P.aTof) ≤ (x.v + P.vTof) * P.dt / 2 := by
          rw [div_le_div_iff₀ (by positivity) (by norm_num)]
          nlinarith
        have e3 : 0 ≤ (x.v - P.vTof) * (x.v + P.vTof) / (2 * P.aTof) :=
          div_nonneg (mul_nonneg (by linarith) (by linarith)) (by positivity)
        have e4 : x.v * P.dt ≤ (P.vTof + P.aTof * P.dt) * P.dt := mul_le_mul_of_nonneg_right v2.le hd.le
        have e5 : 0 ≤ x.v * P.dt := mul_nonneg (by linarith) hd.le
        have e6 : 0 ≤ (P.spent W 0 + (P.aTof + 0.5 + 1.5 * (P.vsMax / P.vsMin)) * (x.t + P.dt)) * P.dt := by
          have : 0 ≤ x.t + P.dt := by linarith
          positivity
        have e7 : 0 ≤ P.vTof * P.dt := by positivity
        have e8 : 0 ≤ P.aTof * P.dt * P.dt := by positivity
        rw [abs_le]
        constructor <;> nlinarith
  · obtain ⟨f1, f2, f3, f4, f5, f6⟩ := climb_fast hs k5
    rw [k4] at f4
    rw [f4] at f5 f6
    obtain ⟨t0, far⟩ := hx.far k1
    have hp := hr.pos.trans_le (hr.low x.h)
    have hh : x.h ≤ x.h + P.rate x.h * P.dt := by nlinarith
    refine ⟨time, fun i => by omega, ?_, ?_, ?_⟩
    · intro _ i
      rw [f4] at i ⊢
      rw [f5 i]
      exact (hx.acc k1 (i.imp hh.trans_lt hh.trans_lt)).next hs k3
    · intro _ i
      rw [f4] at i ⊢
      exact f6 i
    · intro _
      rw [f2, f3, f4]
      refine ⟨by linarith, ?_⟩
      have c := hx.close hs k1 k3
      have st := hs.step k3
      have c2 : |x.v - P.speed x.h| * P.dt ≤
          (P.aTof + 0.5 + 1.5 * (P.vsMax / P.vsMin)) * P.dt * P.dt := mul_le_mul_of_nonneg_right c hd.le
      rw [← abs_of_pos hd, ← abs_mul, abs_of_pos hd] at c2
      unfold ClimbParams.distance at far ⊢
      rw [hs.speed.add hr le_rfl k3 (k3.trans hh)]
      rw [abs_le] at *
      constructor <;> linarith
  · exact absurd k hne

/-- Up to its first level row the climb is close to the continuous climb. -/
theorem climb_far {P : ClimbParams} {W : ℝ} (hs : ClimbSpeeds P W) {s : ClimbState}
    {ss : List ClimbState} (h : Trace (climbBody P) s ss) (hi : ClimbFar P W s) :
    ∀ pre x post, ss = pre ++ x :: post → (∀ y ∈ pre, y.seg ≠ some .CR) → ClimbFar P W x := by
  induction h with
  | @last s hb =>
    intro pre x post e _
    rcases pre with _ | ⟨y, pre⟩
    · cases e; exact hi
    · simp at e
  | @step s ss hb ht ih =>
    intro pre x post e hpre
    rcases pre with _ | ⟨y, pre⟩
    · cases e; exact hi
    · simp only [List.cons_append, List.cons.injEq] at e
      obtain ⟨rfl, e⟩ := e
      exact ih (climbFar_step hs hi (hpre _ (by simp))) pre x post e
        fun z hz => hpre z (by simp [hz])

end Verif.Gen
