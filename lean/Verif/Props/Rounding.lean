import Verif.Spec.Rounding
import Verif.Lemmas.FloatCas
import Verif.Lemmas.FloatGeo
import Verif.Lemmas.FloatFuel
import Verif.Data.FuelModels

/-!
# C121: accuracy in floating point

The other properties are about exact arithmetic. Here the same functions run on a machine `M`
that rounds every literal and operation to the nearest number of a format `f` and whose
mathematical library errs by at most 4 units in the last place. `f.u` is the unit roundoff, `2⁻⁵³`
for `float64` and `2⁻²⁴` for `float32`.
-/

namespace Verif.Props
open Verif Verif.Aero Verif.Spec

variable {f : Format} (M : Machine f)

theorem accurate_of_ap (hw : f.Wide) {n c : ℝ} {L : ℕ} {a b : ℝ} (h : Ap f.u n L a b) (hn : 0 ≤ n)
    (hs : n ≤ 60000) (hc : 1.01 * n ≤ c) : Accurate f c a b := by
  have hu := f.u_pos
  have := h.rel hn hu.le (by have := mul_u hw hs; have := hw.u_le'; nlinarith)
  unfold Accurate
  rw [abs_of_pos h.pos]
  refine this.trans ?_
  have := h.pos
  gcongr

/-- The atmosphere, up to 50 km. -/
theorem C121_atmosphere (hw : f.Wide) {h : ℝ} (hh : |h| ≤ 50000) (dT : ℝ) :
    Accurate f 10 (temperature (flt M) ⟨h⟩ ⟨dT⟩).val (temperature np h dT) ∧
    Accurate f 108 (density (flt M) ⟨h⟩ ⟨dT⟩).val (density np h dT) ∧
    Accurate f 121 (pressure (flt M) ⟨h⟩ ⟨dT⟩).val (pressure np h dT) ∧
    Accurate f 8.2 (vsound (flt M) ⟨h⟩ ⟨dT⟩).val (vsound np h dT) := by
  refine ⟨accurate_of_ap hw (n := 9.9) (L := 10) ?_ (by norm_num) (by norm_num) (by norm_num),
    accurate_of_ap hw (fl_density M hw hh dT) (by norm_num) (by norm_num) (by norm_num),
    accurate_of_ap hw (fl_pressure M hw hh dT) (by norm_num) (by norm_num) (by norm_num),
    accurate_of_ap hw (fl_vsound M hw hh dT) (by norm_num) (by norm_num) (by norm_num)⟩
  rw [temperature_eq]
  exact fl_temp M hw hh dT

/-- Mach number and equivalent airspeed. -/
theorem C121_speeds (hw : f.Wide) {v h : ℝ} (hv : 1 / 1000 ≤ v) (hv' : v ≤ 1000)
    (hh : |h| ≤ 50000) (dT : ℝ) :
    Accurate f 9.5 (tas2mach (flt M) ⟨v⟩ ⟨h⟩ ⟨dT⟩).val (tas2mach np v h dT) ∧
    Accurate f 9.5 (mach2tas (flt M) ⟨v⟩ ⟨h⟩ ⟨dT⟩).val (mach2tas np v h dT) ∧
    Accurate f 57 (eas2tas (flt M) ⟨v⟩ ⟨h⟩ ⟨dT⟩).val (eas2tas np v h dT) ∧
    Accurate f 57 (tas2eas (flt M) ⟨v⟩ ⟨h⟩ ⟨dT⟩).val (tas2eas np v h dT) := by
  have ev := Ap.exact (u := f.u) (L := 10) (b := v) (le_trans (by norm_num) hv)
    (hv'.trans (by norm_num))
  have ea := fl_vsound M hw hh dT
  have ed := fl_density M hw hh dT
  have er := Ap.lit M hw (L := 1) (b := 1.225) (by norm_num) (by norm_num) (by norm_num)
  have q1 := ((er.div ed).rnd M hw (by norm_num) (by norm_num)).sqrt.rnd M hw
    (by norm_num) (by norm_num)
  have q2 := ((ed.div er).rnd M hw (by norm_num) (by norm_num)).sqrt.rnd M hw
    (by norm_num) (by norm_num)
  exact ⟨accurate_of_ap hw ((ev.div ea).rnd M hw (by norm_num) (by norm_num)) (by norm_num)
      (by norm_num) (by norm_num),
    accurate_of_ap hw ((ev.mul ea).rnd M hw (by norm_num) (by norm_num)) (by norm_num)
      (by norm_num) (by norm_num),
    accurate_of_ap hw ((ev.mul q1).rnd M hw (by norm_num) (by norm_num)) (by norm_num)
      (by norm_num) (by norm_num),
    accurate_of_ap hw ((ev.mul q2).rnd M hw (by norm_num) (by norm_num)) (by norm_num)
      (by norm_num) (by norm_num)⟩

theorem vsound_range {h : ℝ} (h1 : -1000 ≤ h) (dT : ℝ) :
    277 ≤ vsound np h dT ∧ vsound np h dT ≤ 353 := by
  have e' : vsound np h dT = √(1.40 * 287.05287 * isaTemp h dT) := by
    rw [← temperature_eq]; rfl
  have t1 := temp_ge h dT
  have t2 : isaTemp h dT ≤ 309.65 := by
    have s := (shift_bounds dT).2
    unfold isaTemp
    split_ifs <;> linarith
  rw [e']
  constructor
  · refine Real.le_sqrt_of_sq_le ?_
    nlinarith
  · rw [Real.sqrt_le_left (by norm_num)]
    nlinarith

/-- Calibrated airspeed. The bound grows as the speed falls, where the code subtracts 1 from a
number close to 1. -/
theorem C121_calibrated (hw : f.Wide) {h : ℝ} (h1 : -1000 ≤ h) (h2 : h ≤ 15000) (dT : ℝ) :
    (∀ v, 30 ≤ v → v ≤ 400 →
      Accurate f (228 + 4.5e6 / v ^ 2) (cas2tas (flt M) ⟨v⟩ ⟨h⟩ ⟨dT⟩).val (cas2tas np v h dT) ∧
      Accurate f (485 + 2.5e7 / v ^ 2) (tas2cas (flt M) ⟨v⟩ ⟨h⟩ ⟨dT⟩).val (tas2cas np v h dT) ∧
      Accurate f (238 + 4.5e6 / v ^ 2) (cas2mach (flt M) ⟨v⟩ ⟨h⟩ ⟨dT⟩).val
        (cas2mach np v h dT)) ∧
    ∀ m, 0.11 ≤ m → m ≤ 1.1 →
      Accurate f (520 + 320 / m ^ 2) (mach2cas (flt M) ⟨m⟩ ⟨h⟩ ⟨dT⟩).val (mach2cas np m h dT) := by
  have hh : |h| ≤ 50000 := abs_le.2 ⟨by linarith, by linarith⟩
  constructor
  · intro v v1 v2
    have ev := Ap.exact (u := f.u) (L := 10) (b := v) (le_trans (by norm_num) v1)
      (v2.trans (by norm_num))
    have c0 : 0 < v ^ 2 := by positivity
    have c1 : 1 / v ^ 2 ≤ 1 / 900 := by
      rw [div_le_div_iff₀ c0 (by norm_num)]; nlinarith
    have c2 : 0 < 1 / v ^ 2 := by positivity
    have a1 := fl_cas2tas M hw ev (by norm_num) (by norm_num) v1 v2 h1 h2 dT
    have a2 := fl_tas2cas M hw ev (by norm_num) (by norm_num) v1 v2 h1 h2 dT
    have d1 : ∀ c : ℝ, c / v ^ 2 = c * (1 / v ^ 2) := fun c => by rw [mul_one_div]
    rw [d1 4.4e6] at a1
    rw [d1 2.4e7] at a2
    rw [d1 4.5e6, d1 2.5e7]
    obtain ⟨s1, s2⟩ := vsound_range h1 dT
    have a3 := (a1.div ((fl_vsound M hw hh dT).range (K := 9) (le_trans (by norm_num) s1)
      (s2.trans (by norm_num)))).rnd M hw (by norm_num) (by linarith)
    exact ⟨accurate_of_ap hw a1 (by linarith) (by linarith) (by linarith),
      accurate_of_ap hw a2 (by linarith) (by linarith) (by linarith),
      accurate_of_ap hw a3 (by linarith) (by linarith) (by linarith)⟩
  · intro m m1 m2
    obtain ⟨s1, s2⟩ := vsound_range h1 dT
    have ev := ((Ap.exact (u := f.u) (L := 10) (b := m) (le_trans (by norm_num) m1)
      (m2.trans (by norm_num))).mul (fl_vsound M hw hh dT)).rnd M hw (by norm_num) (by norm_num)
    have v1 : 30 ≤ m * vsound np h dT := by nlinarith
    have v2 : m * vsound np h dT ≤ 400 := by nlinarith
    have ev' := ev.range (K := 10) (le_trans (by norm_num) v1) (v2.trans (by norm_num))
    have a := fl_tas2cas M hw ev' (by norm_num) (by norm_num) v1 v2 h1 h2 dT
    have c : 2.4e7 / (m * vsound np h dT) ^ 2 ≤ 313 / m ^ 2 := by
      have : 0 < m := by linarith
      rw [div_le_div_iff₀ (by positivity) (by positivity), mul_pow]
      have : 277 ^ 2 ≤ vsound np h dT ^ 2 := by gcongr
      nlinarith [sq_nonneg m]
    have c' : 0 ≤ 2.4e7 / (m * vsound np h dT) ^ 2 := by positivity
    have c3 : 1 / m ^ 2 ≤ 100 := by
      rw [div_le_iff₀ (by positivity)]; nlinarith
    have d1 : ∀ c : ℝ, c / m ^ 2 = c * (1 / m ^ 2) := fun c => by rw [mul_one_div]
    rw [d1 313] at c
    rw [d1 320]
    exact accurate_of_ap hw a (by linarith) (by linarith) (by linarith)

/-- Drag without wave drag. -/
theorem C121_drag (hw : f.Wide) (ac : Drag.Airframe ℝ) (pol : Drag.Polar ℝ)
    {mass tas alt vs : ℝ} (h : DragRange ac.area pol.cd0 pol.k mass tas alt vs) (dT : ℝ) :
    Accurate f 480
      (Drag.clean (flt M) (Fl.airframe M ac) (Fl.polar M pol) false ⟨mass⟩ ⟨tas⟩ ⟨alt⟩ ⟨vs⟩
        ⟨dT⟩).val
      (Drag.clean np ac pol false mass tas alt vs dT) :=
  accurate_of_ap hw (Drag.fl_clean M hw ac pol h dT) (by norm_num) (by norm_num) (by norm_num)

/-- Great-circle distance between points that are neither at a pole nor nearly antipodal: the
error is a multiple of the radius, not of the distance. -/
theorem C121_distance (hw : f.Wide) {lat1 lon1 lat2 lon2 h : ℝ} (h1 : |lat1| ≤ 89.8)
    (h2 : |lat2| ≤ 89.8) (l1 : |lon1| ≤ 360) (l2 : |lon2| ≤ 360) (hl : -100000 ≤ h)
    (hh : h ≤ 1000000) (hd : Geo.distance np lat1 lon1 lat2 lon2 h ≤ 2.5 * (6371000 + h)) :
    |(Geo.distance (flt M) ⟨lat1⟩ ⟨lon1⟩ ⟨lat2⟩ ⟨lon2⟩ ⟨h⟩).val -
      Geo.distance np lat1 lon1 lat2 lon2 h| ≤ 640 * f.u * (6371000 + h) :=
  Geo.fl_distance M hw h1 h2 l1 l2 hl hh hd

/-- Fuel flow, at a given thrust and in flight (wave drag off). The error is a multiple of the flow
`scale * c1 * number` that the model tends to at high thrust. -/
theorem C121_fuel (hw : f.Wide) (p : Fuel.Params ℝ)
    (hp : FuelRange p.scale p.c1 p.c2 p.c3 p.maxThrust p.number) :
    (∀ T, -2 * (p.number * p.maxThrust) ≤ T → T ≤ 1.6 * (p.number * p.maxThrust) →
      |(Fuel.atThrust (flt M) (Fl.fuel M p) ⟨T⟩).val - Fuel.atThrust np p T| ≤
        690 * f.u * (p.scale * p.c1 * p.number)) ∧
    ∀ (ac : Drag.Airframe ℝ) (pol : Drag.Polar ℝ) (mass tas alt vs acc dT : ℝ) (limit : Bool),
      DragRange ac.area pol.cd0 pol.k mass tas alt vs →
      Drag.clean np ac pol false mass tas alt vs dT ≤ p.number * p.maxThrust →
      mass * 9.81 ≤ 5 * (p.number * p.maxThrust) → |mass * acc| ≤ p.number * p.maxThrust →
      -2 * (p.number * p.maxThrust) ≤ Fuel.enrouteThrust np ac pol false mass tas alt vs acc dT →
      Fuel.enrouteThrust np ac pol false mass tas alt vs acc dT ≤ 1.6 * (p.number * p.maxThrust) →
      |(Fuel.enroute (flt M) (Fl.fuel M p) (Fl.airframe M ac) (Fl.polar M pol) false ⟨mass⟩ ⟨tas⟩
          ⟨alt⟩ ⟨vs⟩ ⟨acc⟩ ⟨dT⟩ limit).val -
        Fuel.enroute np p ac pol false mass tas alt vs acc dT limit| ≤
        12500 * f.u * (p.scale * p.c1 * p.number) := by
  have hu := f.u_pos
  obtain ⟨m1, m2⟩ := hp.hMax
  obtain ⟨n1, n2⟩ := hp.hNum
  have F1 : 1000 ≤ p.number * p.maxThrust := by nlinarith
  have F2 : p.number * p.maxThrust ≤ 10000000 := by nlinarith
  constructor
  · intro T h1 h2
    have := Fuel.fl_atThrust M hw p hp (T' := T) (T := T) (e := 0) (by simp) le_rfl (by norm_num)
      h1 h2
    simpa using this
  · intro ac pol mass tas alt vs acc dT limit h hD hW hA t1 t2
    have a := Fuel.fl_enrouteThrust M hw ac pol h dT F1 F2 hD hW hA
      (abs_le.2 ⟨by linarith, by linarith⟩)
    refine (Fuel.fl_atThrust M hw p hp a (by norm_num) (by norm_num) t1 t2).trans ?_
    have : 0 ≤ p.scale * p.c1 * p.number := by
      have := hp.hScale.1; have := hp.hC1.1
      have : 0 < p.scale := by linarith
      have : 0 < p.c1 := by linarith
      positivity
    gcongr
    norm_num

/-- The coefficients of every shipped fuel model lie in the range above. -/
theorem C121_fuel_models : ∀ r ∈ Data.fuelModels,
    (1 / 2 ≤ Tables.real r.c1 ∧ Tables.real r.c1 ≤ 4) ∧
    (1 / 2 ≤ Tables.real r.c2 ∧ Tables.real r.c2 ≤ 3) ∧
    (1 / 10 ≤ Tables.real r.c3 ∧ Tables.real r.c3 ≤ 7 / 2) := by
  have h : ∀ r ∈ Data.fuelModels, (5000000000000000 ≤ r.c1 ∧ r.c1 ≤ 40000000000000000) ∧
      (5000000000000000 ≤ r.c2 ∧ r.c2 ≤ 30000000000000000) ∧
      (1000000000000000 ≤ r.c3 ∧ r.c3 ≤ 35000000000000000) := by decide +kernel
  intro r hr
  obtain ⟨⟨a1, a2⟩, ⟨b1, b2⟩, c1, c2⟩ := h r hr
  have k : ∀ m n : ℕ, m ≤ n → (m : ℝ) ≤ n := fun m n h => by exact_mod_cast h
  have a1' := k _ _ a1
  have a2' := k _ _ a2
  have b1' := k _ _ b1
  have b2' := k _ _ b2
  have c1' := k _ _ c1
  have c2' := k _ _ c2
  push_cast at a1' a2' b1' b2' c1' c2'
  unfold Tables.real
  refine ⟨⟨?_, ?_⟩, ⟨?_, ?_⟩, ?_, ?_⟩
  all_goals first
    | (rw [le_div_iff₀ (by positivity)]; linarith)
    | (rw [div_le_iff₀ (by positivity)]; linarith)

/-- In double precision (NumPy): pressure to 14 digits and distance to a micrometre. -/
theorem C121_float64 (M : Machine .binary64) :
    (∀ h dT, |h| ≤ 50000 →
      |(pressure (flt M) ⟨h⟩ ⟨dT⟩).val - pressure np h dT| ≤ 1.4e-14 * pressure np h dT) ∧
    ∀ lat1 lon1 lat2 lon2 h, |lat1| ≤ 89.8 → |lat2| ≤ 89.8 → |lon1| ≤ 360 → |lon2| ≤ 360 →
      0 ≤ h → h ≤ 20000 → Geo.distance np lat1 lon1 lat2 lon2 h ≤ 15900000 →
      |(Geo.distance (flt M) ⟨lat1⟩ ⟨lon1⟩ ⟨lat2⟩ ⟨lon2⟩ ⟨h⟩).val -
        Geo.distance np lat1 lon1 lat2 lon2 h| ≤ 1e-6 := by
  have u : Format.binary64.u = (2 : ℝ) ^ (-53 : ℤ) := rfl
  constructor
  · intro h dT hh
    have := (C121_atmosphere M Format.binary64_wide hh dT).2.2.1
    have p := (fl_pressure M Format.binary64_wide hh dT).pos
    unfold Accurate at this
    rw [abs_of_pos p] at this
    refine this.trans (mul_le_mul_of_nonneg_right ?_ p.le)
    rw [u]; norm_num
  · intro lat1 lon1 lat2 lon2 h a b c d h0 h1 hd
    refine (C121_distance M Format.binary64_wide a b c d (by linarith) (by linarith)
      (by linarith)).trans ?_
    rw [u]
    calc 640 * (2 : ℝ) ^ (-53 : ℤ) * (6371000 + h) ≤ 640 * (2 : ℝ) ^ (-53 : ℤ) * 6391000 := by
          gcongr; linarith
      _ ≤ _ := by norm_num

/-- In single precision (JAX as configured): pressure to 5 digits and distance to 250 m. -/
theorem C121_float32 (M : Machine .binary32) :
    (∀ h dT, |h| ≤ 50000 →
      |(pressure (flt M) ⟨h⟩ ⟨dT⟩).val - pressure np h dT| ≤ 7.3e-6 * pressure np h dT) ∧
    ∀ lat1 lon1 lat2 lon2 h, |lat1| ≤ 89.8 → |lat2| ≤ 89.8 → |lon1| ≤ 360 → |lon2| ≤ 360 →
      0 ≤ h → h ≤ 20000 → Geo.distance np lat1 lon1 lat2 lon2 h ≤ 15900000 →
      |(Geo.distance (flt M) ⟨lat1⟩ ⟨lon1⟩ ⟨lat2⟩ ⟨lon2⟩ ⟨h⟩).val -
        Geo.distance np lat1 lon1 lat2 lon2 h| ≤ 250 := by
  have u : Format.binary32.u = (2 : ℝ) ^ (-24 : ℤ) := rfl
  constructor
  · intro h dT hh
    have := (C121_atmosphere M Format.binary32_wide hh dT).2.2.1
    have p := (fl_pressure M Format.binary32_wide hh dT).pos
    unfold Accurate at this
    rw [abs_of_pos p] at this
    refine this.trans (mul_le_mul_of_nonneg_right ?_ p.le)
    rw [u]; norm_num
  · intro lat1 lon1 lat2 lon2 h a b c d h0 h1 hd
    refine (C121_distance M Format.binary32_wide a b c d (by linarith) (by linarith)
      (by linarith)).trans ?_
    rw [u]
    calc 640 * (2 : ℝ) ^ (-24 : ℤ) * (6371000 + h) ≤ 640 * (2 : ℝ) ^ (-24 : ℤ) * 6391000 := by
          gcongr; linarith
      _ ≤ _ := by norm_num

/-! Cases: double precision with a correctly rounded library; FL360 on a standard day; an A320-sized
drag polar; one degree of longitude on the equator. -/

/-- Every result is the nearest number of the format. -/
noncomputable def rounded (hw : f.Wide) : Machine f :=
  have h : f.emin ≤ f.emax := by have := hw.small; have := hw.large; have := hw.prec; omega
  have a : ∀ x, f.Acc (f.exists_near h x).choose x := fun x => by
    obtain ⟨h1, h2⟩ := (f.exists_near h x).choose_spec
    generalize (f.exists_near h x).choose = g at *
    have h3 := h2 0 (f.repr_zero h)
    rw [zero_sub, abs_neg] at h3
    have hu := f.u_pos
    refine ⟨fun h0 => ?_, ?_, fun hm => ?_⟩
    · rw [h0, sub_zero, abs_zero] at h3
      exact abs_eq_zero.1 (le_antisymm h3 (abs_nonneg _))
    · have := sq_le_sq.2 h3
      nlinarith [sq_nonneg g]
    · obtain ⟨y, hy, hd⟩ := Format.exists_close hw hm
      refine ((h2 y hy).trans hd).trans ?_
      gcongr
      linarith
  { rnd := fun x => (f.exists_near h x).choose
    rnd_repr := fun x _ => (f.exists_near h x).choose_spec.1
    rnd_near := fun x _ => (f.exists_near h x).choose_spec.2
    powi := fun x n => (f.exists_near h (x ^ n)).choose
    powi_acc := fun _ _ => a _
    exp := fun x => (f.exists_near h (Real.exp x)).choose
    exp_acc := fun _ => a _
    log := fun x => (f.exists_near h (Real.log x)).choose
    log_acc := fun _ _ => a _
    power := fun x y => (f.exists_near h (x ^ y)).choose
    power_acc := fun _ _ _ => a _
    sin := fun x => (f.exists_near h (Real.sin x)).choose
    sin_acc := fun _ => a _
    cos := fun x => (f.exists_near h (Real.cos x)).choose
    cos_acc := fun _ => a _
    tan := fun x => (f.exists_near h (Real.tan x)).choose
    tan_acc := fun _ _ => a _
    arcsin := fun x => (f.exists_near h (Real.arcsin x)).choose
    arcsin_acc := fun _ _ => a _
    arccos := fun x => (f.exists_near h (Real.arccos x)).choose
    arccos_acc := fun _ _ => a _
    arctan := fun x => (f.exists_near h (Real.arctan x)).choose
    arctan_acc := fun _ => a _
    arctan2 := fun y x => (f.exists_near h (atan2R y x)).choose
    arctan2_acc := fun _ _ => a _ }

example : Accurate .binary64 121
    (pressure (flt (rounded Format.binary64_wide)) ⟨10972.8⟩ ⟨0⟩).val (pressure np 10972.8 0) :=
  (C121_atmosphere _ Format.binary64_wide (by norm_num [abs_of_pos]) 0).2.2.1

example : Accurate .binary64 57
    (eas2tas (flt (rounded Format.binary64_wide)) ⟨130⟩ ⟨10972.8⟩ ⟨0⟩).val
    (eas2tas np 130 10972.8 0) :=
  (C121_speeds _ Format.binary64_wide (by norm_num) (by norm_num) (by norm_num [abs_of_pos]) 0).2.2.1

example : Accurate .binary64 (520 + 320 / 0.78 ^ 2)
    (mach2cas (flt (rounded Format.binary64_wide)) ⟨0.78⟩ ⟨10972.8⟩ ⟨0⟩).val
    (mach2cas np 0.78 10972.8 0) :=
  (C121_calibrated _ Format.binary64_wide (by norm_num) (by norm_num) 0).2 0.78 (by norm_num)
    (by norm_num)

example : DragRange 124 0.018 0.039 60000 450 36000 0 :=
  ⟨by norm_num, by norm_num, by norm_num, by norm_num, by norm_num, by norm_num, by norm_num⟩

/-- A320 with CFM56-5B4 engines. -/
example : FuelRange 1 1.0453208160586924 2.3633720747416573 1.2378127479131922 117877 2 :=
  ⟨by norm_num, by norm_num, by norm_num, by norm_num, by norm_num, by norm_num⟩

example (p : Fuel.Params ℝ) (hp : FuelRange p.scale p.c1 p.c2 p.c3 p.maxThrust p.number) :
    |(Fuel.atThrust (flt (rounded Format.binary64_wide)) (Fl.fuel _ p)
      ⟨p.number * p.maxThrust⟩).val - Fuel.atThrust np p (p.number * p.maxThrust)| ≤
      690 * Format.binary64.u * (p.scale * p.c1 * p.number) := by
  have : 0 < p.number * p.maxThrust := mul_pos (by linarith [hp.hNum.1]) (by linarith [hp.hMax.1])
  exact (C121_fuel _ Format.binary64_wide p hp).1 _ (by linarith) (by linarith)

/-- Level flight of an A320 at sea level and 250 kt. -/
example : |(Fuel.enroute (flt (rounded Format.binary64_wide))
      (Fl.fuel _ ⟨1, 1.045, 2.363, 1.238, 117877, 2⟩)
      (Fl.airframe _ ⟨124, 34, 25, none, 78000, false⟩) (Fl.polar _ ⟨0.018, 0.039, 0, 0, 0⟩) false
      ⟨60000⟩ ⟨250⟩ ⟨0⟩ ⟨0⟩ ⟨0⟩ ⟨0⟩ false).val -
    Fuel.enroute np ⟨1, 1.045, 2.363, 1.238, 117877, 2⟩ ⟨124, 34, 25, none, 78000, false⟩
      ⟨0.018, 0.039, 0, 0, 0⟩ false 60000 250 0 0 0 0 false| ≤
    12500 * Format.binary64.u * (1 * 1.045 * 2) := by
  have hd : density np (0 * 0.3048) 0 = 1.225 := by
    rw [density_eq]
    norm_num [isaTemp, shift]
  have hg : atan2R (0 * 0.00508) (250 * 0.514444) = 0 := by
    rw [Drag.atan2_pos _ (by norm_num)]; simp
  have hc : Drag.clean np ⟨124, 34, 25, none, 78000, false⟩ ⟨0.018, 0.039, 0, 0, 0⟩ false
      60000 250 0 0 0 ≤ 40000 ∧ 0 ≤ Drag.clean np ⟨124, 34, 25, none, 78000, false⟩
      ⟨0.018, 0.039, 0, 0, 0⟩ false 60000 250 0 0 0 := by
    simp only [Drag.clean, Drag.calcDrag, Drag.cl, ft, kts, fpm, g0, hd]
    simp only [np, hg]
    norm_num [max_def]
  have ht : Fuel.enrouteThrust np ⟨124, 34, 25, none, 78000, false⟩ ⟨0.018, 0.039, 0, 0, 0⟩ false
      60000 250 0 0 0 0 = Drag.clean np ⟨124, 34, 25, none, 78000, false⟩
      ⟨0.018, 0.039, 0, 0, 0⟩ false 60000 250 0 0 0 := by
    rw [Fuel.enrouteThrust_eq, hg]
    norm_num
  refine (C121_fuel _ Format.binary64_wide ⟨1, 1.045, 2.363, 1.238, 117877, 2⟩
    ⟨by norm_num, by norm_num, by norm_num, by norm_num, by norm_num, by norm_num⟩).2
    ⟨124, 34, 25, none, 78000, false⟩ ⟨0.018, 0.039, 0, 0, 0⟩ 60000 250 0 0 0 0 false
    ⟨by norm_num, by norm_num, by norm_num, by norm_num, by norm_num, by norm_num, by norm_num⟩
    (by dsimp only; linarith) (by norm_num) (by norm_num) ?_ ?_ <;> rw [ht] <;> dsimp only <;> linarith

/-- One degree along the equator. -/
example : |(Geo.distance (flt (rounded Format.binary64_wide)) ⟨0⟩ ⟨0⟩ ⟨0⟩ ⟨1⟩ ⟨0⟩).val -
    Geo.distance np 0 0 0 1 0| ≤ 1e-6 := by
  refine (C121_float64 _).2 0 0 0 1 0 (by norm_num) (by norm_num) (by norm_num) (by norm_num)
    (by norm_num) (by norm_num) ?_
  have h := Real.pi_lt_d4
  have h0 := Real.pi_pos
  simp only [Geo.distance, Geo.deg2rad, Geo.rEarth, np]
  norm_num
  rw [Real.sqrt_sq (Real.sin_nonneg_of_nonneg_of_le_pi (by positivity) (by linarith)),
    Real.arcsin_sin (by linarith) (by linarith)]
  linarith

end Verif.Props
