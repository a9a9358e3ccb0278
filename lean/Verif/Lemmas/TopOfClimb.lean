import Verif.Lemmas.Feasible
import Verif.Lemmas.EnvelopeShipped

/-!
# Thrust and drag where the default climb ends

At the mean cruise altitude, climb Mach number and climb rate of the WRAP table: the thrust needed
as a function of the mass, the thrust there is, and enclosures of both.
-/

namespace Verif.TopOfClimb
open Verif Verif.Aero Verif.Tables Verif.Construct Verif.Registry Verif.Kinematic
open Verif.Spec
open Verif.Feasible (iN has_iN iRef names density_strat temp_strat)
open Verif.Interval (Iv Has rat)
open Verif.Data (shipped)

/-! ## Closed forms -/

/-- Air temperature and density. -/
noncomputable def temp (h : ℝ) : ℝ := if h ≤ 11000 then 288.15 - 0.0065 * h else 216.65

noncomputable def dens (h : ℝ) : ℝ :=
  1.225 * (temp h / 288.15) ^ (4.256848030018761 : ℝ) *
    Real.exp (-(max 0 (h - 11000)) / 6341.552161)

theorem temp_eq (h : ℝ) : isaTemp h 0 = temp h := by
  have h0 : shift 0 = 0 := by simp [shift]; norm_num
  unfold isaTemp temp
  rw [h0]
  split_ifs <;> ring

theorem dens_eq (h : ℝ) : density np h 0 = dens h := by
  have h0 : shift 0 = 0 := by simp [shift]; norm_num
  rw [density_eq, temp_eq, h0, add_zero]
  rfl

theorem press_eq (h : ℝ) : pressure np h 0 = dens h * 287.05287 * temp h := by
  rw [pressure_eq, temperature_eq, temp_eq, dens_eq]

/-- True airspeed squared. -/
noncomputable def spd (M h : ℝ) : ℝ := 401.874018 * temp h * (M * M)

theorem temp_pos' (h : ℝ) : 0 < temp h := by
  rw [← temp_eq]; exact temp_pos h 0

theorem dens_pos' (h : ℝ) : 0 < dens h := by
  rw [← dens_eq]; exact density_pos h 0

theorem tas_sq (M h : ℝ) : mach2tas np M h 0 ^ 2 = spd M h := by
  unfold mach2tas spd
  rw [mul_pow, vsound_eq, Real.sq_sqrt (by have := temp_pos h 0; positivity), temp_eq]
  ring

/-- Thrust needed for a steady climb of mass `m` at `w` m/s. -/
noncomputable def need (cd0 k S M h w m : ℝ) : ℝ :=
  cd0 * (0.5 * dens h * spd M h * S) +
    k * (m * 9.80665 * (m * 9.80665)) * (spd M h / (spd M h + w * w)) / (0.5 * dens h * spd M h * S) +
    m * 9.80665 * w / Real.exp (0.5 * Real.log (spd M h + w * w))

theorem need_mono {cd0 k S M h w m m' : ℝ} (hk : 0 < k) (hS : 0 < S) (hM : 0 < M) (hw : 0 ≤ w)
    (h0 : 0 ≤ m) (h1 : m ≤ m') : need cd0 k S M h w m ≤ need cd0 k S M h w m' := by
  have d := dens_pos' h
  have s : 0 < spd M h := by unfold spd; have := temp_pos' h; positivity
  have h0' : 0 ≤ m' := h0.trans h1
  have h2 : 0 ≤ m' * 9.80665 := by positivity
  unfold need
  have : 0 ≤ spd M h / (spd M h + w * w) := by positivity
  have : 0 ≤ m * 9.80665 := by positivity
  gcongr

theorem need_strict {cd0 k S M h w m m' : ℝ} (hk : 0 < k) (hS : 0 < S) (hM : 0 < M) (hw : 0 < w)
    (h0 : 0 ≤ m) (h1 : m < m') : need cd0 k S M h w m < need cd0 k S M h w m' := by
  have d := dens_pos' h
  have s : 0 < spd M h := by unfold spd; have := temp_pos' h; positivity
  have h2 : 0 ≤ m' * 9.80665 := by have := h0.trans h1.le; positivity
  have : 0 ≤ m * 9.80665 := by positivity
  unfold need
  refine add_lt_add_of_le_of_lt ?_ (by gcongr)
  gcongr

theorem need_continuous (cd0 k S M h w : ℝ) : Continuous (need cd0 k S M h w) := by
  unfold need
  fun_prop

/-- A mass that needs exactly the thrust there is separates those that can climb from the others. -/
theorem exists_limit {cd0 k S M h w F a b : ℝ} (hk : 0 < k) (hS : 0 < S) (hM : 0 < M) (hw : 0 < w)
    (ha : 0 ≤ a) (hab : a ≤ b) (h1 : need cd0 k S M h w a < F) (h2 : F < need cd0 k S M h w b) :
    ∃ l, a < l ∧ l < b ∧ ∀ m, 0 ≤ m → (need cd0 k S M h w m ≤ F ↔ m ≤ l) := by
  obtain ⟨l, ⟨hl, hl'⟩, e⟩ := intermediate_value_Ioo hab
    (need_continuous cd0 k S M h w).continuousOn ⟨h1, h2⟩
  refine ⟨l, hl, hl', fun m hm => ⟨fun hn => ?_, fun hn => ?_⟩⟩
  · by_contra hc
    have := need_strict (cd0 := cd0) (h := h) hk hS hM hw (ha.trans hl.le) (not_le.1 hc)
    rw [e] at this
    linarith
  · rw [← e]
    exact need_mono hk hS hM hw.le hm hn

/-- The drag model, and the component of the weight along the path. -/
theorem need_eq {ac : Drag.Airframe ℝ} {pol : Drag.Polar ℝ} {M h w tas alt vs m : ℝ}
    (hM : 0 < M) (hq : 1e-3 ≤ 0.5 * dens h * spd M h * ac.area)
    (ht : tas * 0.514444 = mach2tas np M h 0) (ha : alt * 0.3048 = h) (hv : vs * 0.00508 = w) :
    Drag.clean np ac pol false m tas alt vs 0 +
      m * 9.80665 * (w / Real.sqrt (mach2tas np M h 0 ^ 2 + w ^ 2)) =
    need pol.cd0 pol.k ac.area M h w m := by
  have s : 0 < spd M h := by unfold spd; have := temp_pos' h; positivity
  have hp : 0 < spd M h + w * w := by nlinarith [mul_self_nonneg w]
  have v0 : mach2tas np M h 0 ≠ 0 := by
    intro e
    have := tas_sq M h
    rw [e] at this
    norm_num at this
    linarith
  have q : Drag.qS ac tas alt 0 = 0.5 * dens h * spd M h * ac.area := by
    unfold Drag.qS
    rw [ha, ht, dens_eq, tas_sq]
    exact max_eq_left hq
  have l : Drag.lift m tas vs ^ 2 =
      m * 9.80665 * (m * 9.80665) * (spd M h / (spd M h + w * w)) := by
    unfold Drag.lift
    rw [ht, hv, Drag.cos_atan2_eq _ _ (Or.inl v0), mul_pow, div_pow, tas_sq,
      Real.sq_sqrt (by rw [sq w]; exact hp.le)]
    ring
  have e : Real.sqrt (mach2tas np M h 0 ^ 2 + w ^ 2) =
      Real.exp (0.5 * Real.log (spd M h + w * w)) := by
    rw [tas_sq, sq w, Real.sqrt_eq_rpow, Real.rpow_def_of_pos hp]
    congr 1
    ring
  unfold Drag.clean need
  simp only [Bool.false_eq_true, if_false]
  rw [Drag.calcDrag_eq, q, l, e, show (0.0:ℝ) = 0 by norm_num, add_zero]
  ring

/-- Climb thrust above 30000 ft. -/
noncomputable def avail (c F M h hc : ℝ) : ℝ :=
  ((-0.4204 * (M / c) + 1.0824) * Real.log (dens h * temp h / (dens hc * temp hc)) +
    Real.exp (-0.11 * Real.log (M / c))) * F

theorem avail_eq {P : Thrust.Params ℝ} {M h hc tas alt : ℝ} (roc : ℝ) (hM : 0.5 ≤ M)
    (hp : 0 < P.cruiseMach) (hF : P.cruiseThrust * P.number ≠ 0) (h1 : 30000 < alt)
    (ht : tas * 0.514444 = mach2tas np M h 0) (ha : alt * 0.3048 = h)
    (hc' : P.cruiseAlt * 0.3048 = hc) :
    Thrust.climb np P tas alt roc 0 =
      avail P.cruiseMach (P.cruiseThrust * P.number) M h hc := by
  have hv := vsound_pos h 0
  have hv' := Verif.Gen.vsound_lower h
  have h10 : max 10 tas = tas := by
    refine max_eq_right ?_
    have : 0.5 * 295 ≤ tas * 0.514444 := by
      rw [ht]
      unfold mach2tas
      nlinarith
    norm_num at this
    linarith
  rw [Thrust.climb_eq P hF, if_pos h1]
  have hm : Thrust.mratio P tas alt 0 = M / P.cruiseMach := by
    unfold Thrust.mratio
    rw [h10, ha, ht]
    congr 1
    unfold tas2mach mach2tas
    field_simp
  have hr : Thrust.pratio P alt 0 = dens h * temp h / (dens hc * temp hc) := by
    unfold Thrust.pratio
    rw [ha, hc', press_eq, press_eq]
    have := dens_pos' hc
    have := temp_pos' hc
    field_simp
  unfold Thrust.seg3 avail
  rw [hm, hr, Real.rpow_def_of_pos (div_pos (by linarith) hp), mul_comm (Real.log (M / _))]
  rfl

/-! ## Enclosures -/

/-- The altitude in tenths of a metre. -/
noncomputable def alt10 (z : ℤ) : ℝ := z / 10

def iT (z : ℤ) : Iv := if z ≤ 110000 then rat (288150000 - 650 * z) 1000000 else rat 21665 100

theorem has_iT (z : ℤ) : Has (iT z) (temp (alt10 z)) := by
  unfold iT temp alt10
  by_cases h : z ≤ 110000
  · have : (z : ℝ) / 10 ≤ 11000 := by
      have : (z:ℝ) ≤ 110000 := by exact_mod_cast h
      linarith
    rw [if_pos h, if_pos this]
    refine cast (congrArg _ ?_) (Interval.has_rat (288150000 - 650 * z) 1000000)
    push_cast
    ring
  · have : ¬ (z : ℝ) / 10 ≤ 11000 := by
      have : (110000:ℝ) < z := by exact_mod_cast not_le.1 h
      linarith
    rw [if_neg h, if_neg this]
    refine cast (congrArg _ ?_) (Interval.has_rat 21665 100)
    norm_num

def iRho (z : ℤ) : Iv :=
  Interval.mul (Interval.mul (rat 1225 1000)
    (Interval.exp (Interval.mul (rat 4256848030018761 1000000000000000)
      (Interval.log (Interval.div (iT z) (rat 28815 100))))))
    (Interval.exp (Interval.div (Interval.neg (rat (max 0 (z - 110000)) 10)) (rat 6341552161 1000000)))

theorem has_iRho (z : ℤ) : Has (iRho z) (dens (alt10 z)) := by
  have a2 := Interval.has_rat 1225 1000
  have a3 := Interval.has_rat 4256848030018761 1000000000000000
  have a4 := ((has_iT z).div (Interval.has_rat 28815 100)).log
  have a5 := (Interval.has_rat (max 0 (z - 110000)) 10).neg.div (Interval.has_rat 6341552161 1000000)
  refine cast (congrArg _ ?_) ((a2.mul (a3.mul a4).exp).mul a5.exp)
  have hT := temp_pos' (alt10 z)
  have e : ((max 0 (z - 110000) : ℤ) : ℝ) / (10:ℤ) = max 0 (alt10 z - 11000) := by
    unfold alt10
    push_cast
    rw [← max_div_div_right (by norm_num), zero_div]
    congr 1
    ring
  unfold dens
  rw [e, Real.rpow_def_of_pos (by positivity), mul_comm (Real.log _),
    show ((1225:ℤ):ℝ) / (1000:ℤ) = 1.225 by norm_num,
    show ((4256848030018761:ℤ):ℝ) / (1000000000000000:ℤ) = 4.256848030018761 by norm_num,
    show ((28815:ℤ):ℝ) / (100:ℤ) = 288.15 by norm_num,
    show ((6341552161:ℤ):ℝ) / (1000000:ℤ) = 6341.552161 by norm_num]

def iW (z : ℤ) : Iv := rat z 10000

theorem has_iW (z : ℤ) : Has (iW z) (wreal z) := by
  refine cast (congrArg _ ?_) (Interval.has_rat z 10000)
  unfold wreal
  norm_num

def iSpd (zm zh : ℤ) : Iv :=
  Interval.mul (Interval.mul (rat 401874018 1000000) (iT zh)) (Interval.mul (iW zm) (iW zm))

theorem has_iSpd (zm zh : ℤ) : Has (iSpd zm zh) (spd (wreal zm) (alt10 zh)) := by
  refine cast (congrArg _ ?_) (((Interval.has_rat 401874018 1000000).mul (has_iT zh)).mul
    ((has_iW zm).mul (has_iW zm)))
  unfold spd
  norm_num

def iForce (S : ℕ) (zm zh : ℤ) : Iv :=
  Interval.mul (Interval.mul (Interval.mul (rat 1 2) (iRho zh)) (iSpd zm zh)) (iN S)

theorem has_iForce (S : ℕ) (zm zh : ℤ) : Has (iForce S zm zh)
    (0.5 * dens (alt10 zh) * spd (wreal zm) (alt10 zh) * real S) := by
  refine cast (congrArg _ ?_) ((((Interval.has_rat 1 2).mul (has_iRho zh)).mul (has_iSpd zm zh)).mul
    (has_iN S))
  norm_num

def iNeed (p : PolarRow) (S : ℕ) (zm zh zw : ℤ) (m : ℕ) : Iv :=
  let q := iForce S zm zh
  let g := Interval.mul (iN m) (rat 980665 100000)
  let u := iSpd zm zh
  let s := Interval.add u (Interval.mul (iW zw) (iW zw))
  Interval.add (Interval.add (Interval.mul (iN p.cd0) q)
    (Interval.div (Interval.mul (Interval.mul (iN p.k) (Interval.mul g g)) (Interval.div u s)) q))
    (Interval.div (Interval.mul g (iW zw))
      (Interval.exp (Interval.mul (rat 1 2) (Interval.log s))))

theorem has_iNeed (p : PolarRow) (S : ℕ) (zm zh zw : ℤ) (m : ℕ) : Has (iNeed p S zm zh zw m)
    (need (real p.cd0) (real p.k) (real S) (wreal zm) (alt10 zh) (wreal zw) (real m)) := by
  have q := has_iForce S zm zh
  have g : Has (Interval.mul (iN m) (rat 980665 100000)) (real m * 9.80665) := by
    refine cast (congrArg _ ?_) ((has_iN m).mul (Interval.has_rat 980665 100000))
    norm_num
  have u := has_iSpd zm zh
  have s := u.add ((has_iW zw).mul (has_iW zw))
  have h2 : Has (rat 1 2) 0.5 := by
    refine cast (congrArg _ ?_) (Interval.has_rat 1 2)
    norm_num
  exact (((has_iN _).mul q).add ((((has_iN _).mul (g.mul g)).mul (u.div s)).div q)).add
    ((g.mul (has_iW zw)).div (h2.mul s.log).exp)

/-- The height of the aircraft file, in tenths of a metre. -/
def zc (a : AircraftRow) : ℤ := (a.height / 10 ^ 15 : ℕ)

def iAvail (a : AircraftRow) (e : EngineRow) (zm zh : ℤ) : Iv :=
  let r := Interval.div (iW zm) (iRef a e).1
  let c := zc a
  Interval.mul (Interval.add
    (Interval.mul (Interval.add (Interval.mul (rat (-4204) 10000) r) (rat 10824 10000))
      (Interval.log (Interval.div (Interval.mul (iRho zh) (iT zh)) (Interval.mul (iRho c) (iT c)))))
    (Interval.exp (Interval.mul (rat (-11) 100) (Interval.log r))))
    (Interval.mul (iRef a e).2 (iN a.number))

theorem has_iAvail {a : AircraftRow} {e : EngineRow} {P : Thrust.Params ℝ}
    (h : thrustParams a e = Defined.liftThrust P) (zm zh : ℤ) (hz : alt10 (zc a) = real a.height) :
    Has (iAvail a e zm zh)
      (avail P.cruiseMach (P.cruiseThrust * P.number) (wreal zm) (alt10 zh) (real a.height)) := by
  have r := Feasible.has_iRef h
  have n : P.number = real a.number := by
    unfold thrustParams Defined.liftThrust at h
    injection h with _ _ _ h4
    injection h4 with h4
    exact h4.symm
  have q := (has_iW zm).div r.1
  have l := (((has_iRho zh).mul (has_iT zh)).div ((has_iRho (zc a)).mul (has_iT (zc a)))).log
  have := (((((Interval.has_rat (-4204) 10000).mul q).add (Interval.has_rat 10824 10000)).mul l).add
    ((Interval.has_rat (-11) 100).mul q.log).exp).mul (r.2.mul (has_iN a.number))
  refine cast (congrArg _ ?_) this
  rw [hz]
  unfold avail
  rw [n, show (((-4204:ℤ)):ℝ) / (10000:ℤ) = -0.4204 by norm_num,
    show ((10824:ℤ):ℝ) / (10000:ℤ) = 1.0824 by norm_num,
    show ((-11:ℤ):ℝ) / (100:ℤ) = -0.11 by norm_num]

/-! ## The shipped files -/

/-- Types that can keep up the climb at every mass up to MTOW. -/
def strong : List String := ["gl5t", "glf5", "glf6", "lj45", "pc24"]

/-- Types that cannot at any mass from the empty weight. -/
def weak : List String := ["a359", "b773", "b788", "c25a", "c525", "c550", "c56x", "md11"]

def climbs (ac : Str) (a : AircraftRow) (e : EngineRow) (p : PolarRow) (zm zh zw : ℤ) : Bool :=
  let f := iAvail a e zm zh
  decide (a.height % 10 ^ 15 = 0 ∧ 91500 ≤ zh ∧ 5000 ≤ zm ∧ 0 < zw) &&
  Interval.above 1 1 (iForce a.area zm zh) &&
  (if ac ∈ names weak then
    Interval.below 0 1 (Interval.sub f (iNeed p a.area zm zh zw a.oew))
  else if ac ∈ names strong then
    Interval.above 0 1 (Interval.sub f (iNeed p a.area zm zh zw a.mtow))
  else Interval.above 0 1 (Interval.sub f (iNeed p a.area zm zh zw a.oew)) &&
    Interval.below 0 1 (Interval.sub f (iNeed p a.area zm zh zw a.mtow)))

def climbsAt (ac : Str) (a : AircraftRow) (e : EngineRow) (p : PolarRow) (w : List WrapRow) : Bool :=
  match getVar w climbConstMach, getVar w cruiseAlt, getVar w climbVsConmach with
  | .ok m, .ok h, .ok v => climbs ac a e p m.opt h.opt v.opt
  | _, _, _ => false

theorem shipped_climbs : (availableAircraft shipped true).all (fun ac =>
    match thrust shipped ac none (some true) false, drag shipped ac (some true),
      wrap shipped ac (some true) with
    | .ok t, .ok d, .ok w => climbsAt ac t.1 t.2 d.2 w
    | _, _, _ => false) = true := by
  decide +kernel

/-- What the check says about one type. -/
theorem climbs_spec {ac : Str} {a : AircraftRow} {e : EngineRow} {p : PolarRow} {zm zh zw : ℤ}
    {P : Thrust.Params ℝ} (h : climbs ac a e p zm zh zw = true)
    (hP : thrustParams a e = Defined.liftThrust P) (hc : 0 < P.cruiseMach)
    (hF : 0 < P.cruiseThrust * P.number) (hk : 0 < real p.k) (hS : 0 < real a.area)
    {tas alt vs : ℝ} (ht : tas = mach2tas np (wreal zm) (wreal zh * 1000) 0 / 0.514444)
    (ha : alt = wreal zh * 1000 / 0.3048) (hv : vs = wreal zw / 0.00508) :
    ∃ need : ℝ → ℝ, (∀ m, Drag.clean np (airframe a) (polarParams p) false m tas alt vs 0 +
        m * 9.80665 * (wreal zw /
          Real.sqrt (mach2tas np (wreal zm) (wreal zh * 1000) 0 ^ 2 + wreal zw ^ 2)) = need m) ∧
      (ac ∈ names weak → ∀ m, real a.oew ≤ m → Thrust.climb np P tas alt vs 0 < need m) ∧
      (ac ∉ names weak → ac ∈ names strong → ∀ m, 0 ≤ m → m ≤ real a.mtow →
        need m < Thrust.climb np P tas alt vs 0) ∧
      (ac ∉ names weak → ac ∉ names strong → ∃ l, real a.oew < l ∧ l < real a.mtow ∧
        ∀ m, 0 ≤ m → (need m ≤ Thrust.climb np P tas alt vs 0 ↔ m ≤ l)) := by
  unfold climbs at h
  rw [Bool.and_eq_true, Bool.and_eq_true, decide_eq_true_eq] at h
  obtain ⟨⟨⟨b0, b1, b2, b3⟩, b4⟩, h⟩ := h
  have eh : wreal zh * 1000 = alt10 zh := by unfold wreal alt10; ring
  rw [eh] at ht ha ⊢
  have hz : alt10 (zc a) = real a.height := by
    unfold alt10 zc real
    have e := Nat.div_add_mod a.height (10 ^ 15)
    rw [b0, add_zero] at e
    have e' : ((10 ^ 15 * (a.height / 10 ^ 15) : ℕ) : ℝ) = a.height := by rw [e]
    rw [← e', Int.cast_natCast]
    push_cast
    generalize ((a.height / 10 ^ 15 : ℕ) : ℝ) = x
    ring
  have c1 : 9150 ≤ alt10 zh := by
    have : (91500:ℝ) ≤ zh := by exact_mod_cast b1
    unfold alt10
    linarith
  have c2 : 0.5 ≤ wreal zm := by
    have : (5000:ℝ) ≤ zm := by exact_mod_cast b2
    unfold wreal
    rw [le_div_iff₀ (by norm_num)]
    linarith
  have c3 : 0 < wreal zw := by
    have : (0:ℝ) < zw := by exact_mod_cast b3
    unfold wreal
    positivity
  have c4 := Interval.of_above b4 (has_iForce a.area zm zh)
  rw [Int.cast_one, div_one] at c4
  have ht' : tas * 0.514444 = mach2tas np (wreal zm) (alt10 zh) 0 := by rw [ht]; field_simp
  have ha' : alt * 0.3048 = alt10 zh := by rw [ha]; field_simp
  have hv' : vs * 0.00508 = wreal zw := by rw [hv]; field_simp
  have hcr : P.cruiseAlt * 0.3048 = real a.height := by
    unfold thrustParams Defined.liftThrust at hP
    injection hP with h1
    injection h1 with h1
    rw [← h1]
    unfold ft
    field_simp
  have hal : 30000 < alt := by
    rw [ha, lt_div_iff₀ (by norm_num)]
    linarith
  have hM : 0 < wreal zm := by linarith
  have iF := has_iAvail hP zm zh hz
  rw [← avail_eq vs c2 hc hF.ne' hal ht' ha' hcr] at iF
  have up : ∀ n : ℕ,
      Interval.above 0 1 (Interval.sub (iAvail a e zm zh) (iNeed p a.area zm zh zw n)) = true →
      need (real p.cd0) (real p.k) (real a.area) (wreal zm) (alt10 zh) (wreal zw) (real n) <
        Thrust.climb np P tas alt vs 0 := by
    intro n hn
    have := Interval.of_above hn (iF.sub (has_iNeed p a.area zm zh zw n))
    rw [Int.cast_zero, zero_div] at this
    linarith
  have down : ∀ n : ℕ,
      Interval.below 0 1 (Interval.sub (iAvail a e zm zh) (iNeed p a.area zm zh zw n)) = true →
      Thrust.climb np P tas alt vs 0 <
        need (real p.cd0) (real p.k) (real a.area) (wreal zm) (alt10 zh) (wreal zw) (real n) := by
    intro n hn
    have := Interval.of_below hn (iF.sub (has_iNeed p a.area zm zh zw n))
    rw [Int.cast_zero, zero_div] at this
    linarith
  refine ⟨need (real p.cd0) (real p.k) (real a.area) (wreal zm) (alt10 zh) (wreal zw),
    fun m => need_eq (pol := polarParams p) hM (le_trans (by norm_num) c4.le) ht' ha' hv',
    fun k1 m hm => ?_, fun k1 k2 m h0 hm => ?_, fun k1 k2 => ?_⟩
  · rw [if_pos k1] at h
    exact (down _ h).trans_le (need_mono hk hS hM c3.le (real_nonneg _) hm)
  · rw [if_neg k1, if_pos k2] at h
    exact (need_mono hk hS hM c3.le h0 hm).trans_lt (up _ h)
  · rw [if_neg k1, if_neg k2, Bool.and_eq_true] at h
    have u := up _ h.1
    have d := down _ h.2
    refine exists_limit hk hS hM c3 (real_nonneg _) ?_ u d
    by_contra hlt
    have := need_mono (cd0 := real p.cd0) (h := alt10 zh) hk hS hM c3.le (real_nonneg a.mtow)
      (not_le.1 hlt).le
    linarith

end Verif.TopOfClimb
