import Verif.Lemmas.Construct
import Verif.Lemmas.Drag
import Verif.Lemmas.Thrust
import Verif.Lemmas.GenDescent
import Verif.Lemmas.Interval

/-!
# Thrust and drag at the cruise point of the aircraft file

Closed forms of both at the height and Mach number of the file, enclosed by interval arithmetic.
-/

namespace Verif.Feasible
open Verif Verif.Aero Verif.Tables Verif.Construct Verif.Registry
open Verif.Spec
open Verif.Interval (Iv Has rat)
open Verif.Data (shipped)

/-! ## Closed forms -/

/-- Dynamic pressure times area in the isothermal layer at Mach `M`, height `h`, area `S`. -/
noncomputable def force (M h S : ℝ) : ℝ :=
  0.5 * (1.225 * (216.65 / 288.15) ^ (4.256848030018761 : ℝ) *
    Real.exp (-(h - 11000) / 6341.552161)) * (401.874018 * 216.65 * (M * M)) * S

theorem force_pos {M h S : ℝ} (hM : 0 < M) (hS : 0 < S) : 0 < force M h S := by
  unfold force
  positivity

theorem temp_strat {h : ℝ} (hh : 11000 ≤ h) : isaTemp h 0 = 216.65 := by
  have h0 : shift 0 = 0 := by simp [shift]; norm_num
  unfold isaTemp
  rw [h0]
  split_ifs with h1
  · obtain rfl := le_antisymm h1 hh
    norm_num
  · norm_num

theorem density_strat {h : ℝ} (hh : 11000 ≤ h) : density np h 0 =
    1.225 * (216.65 / 288.15) ^ (4.256848030018761 : ℝ) *
      Real.exp (-(h - 11000) / 6341.552161) := by
  have h0 : shift 0 = 0 := by simp [shift]; norm_num
  rw [density_eq, temp_strat hh, h0, add_zero, max_eq_right (by linarith)]

theorem vsound_sq {h : ℝ} (hh : 11000 ≤ h) : vsound np h 0 * vsound np h 0 = 401.874018 * 216.65 := by
  rw [vsound_eq, temp_strat hh, Real.mul_self_sqrt (by norm_num)]

/-- Drag at Mach `M` and height `h` in the isothermal layer. -/
theorem drag_at {ac : Drag.Airframe ℝ} {pol : Drag.Polar ℝ} {M h tas alt : ℝ} (hh : 11000 ≤ h)
    (hM : 0.5 ≤ M) (hS : 1 ≤ ac.area) (h2 : h ≤ 15000) (ht : tas * 0.514444 = mach2tas np M h 0)
    (ha : alt * 0.3048 = h) (m : ℝ) :
    Drag.clean np ac pol false m tas alt 0 0 = pol.cd0 * force M h ac.area +
      pol.k * (m * 9.80665 * (m * 9.80665)) / force M h ac.area := by
  have hv := vsound_pos h 0
  have hq : Drag.qS ac tas alt 0 = force M h ac.area := by
    unfold Drag.qS force
    rw [ha, ht, density_strat hh]
    have e : mach2tas np M h 0 ^ 2 = 401.874018 * 216.65 * (M * M) := by
      rw [← vsound_sq hh]
      unfold mach2tas
      ring
    rw [e]
    refine max_eq_left ?_
    have p2 : (0.1 : ℝ) ≤ Real.exp (-(h - 11000) / 6341.552161) := by
      have := Real.add_one_le_exp (-(h - 11000) / 6341.552161)
      refine le_trans ?_ this
      have : -0.7 ≤ -(h - 11000) / 6341.552161 := by
        rw [le_div_iff₀ (by norm_num)]; linarith
      linarith
    have p3 : 0.25 ≤ M * M := by nlinarith
    have p1 : (0.1 : ℝ) ≤ (216.65 / 288.15) ^ (4.256848030018761 : ℝ) := by
      have : ((216.65:ℝ) / 288.15) ^ (5:ℝ) ≤ (216.65 / 288.15) ^ (4.256848030018761 : ℝ) :=
        Real.rpow_le_rpow_of_exponent_ge (by norm_num) (by norm_num) (by norm_num)
      refine le_trans ?_ this
      rw [show (5:ℝ) = ((5:ℕ):ℝ) by norm_num, Real.rpow_natCast]
      norm_num
    generalize ((216.65:ℝ) / 288.15) ^ (4.256848030018761 : ℝ) = r at *
    generalize Real.exp (-(h - 11000) / 6341.552161) = x at *
    calc (1e-3:ℝ) ≤ 0.5 * (1.225 * 0.1 * 0.1) * (401.874018 * 216.65 * 0.25) * 1 := by norm_num
      _ ≤ _ := by gcongr
  have hl : Drag.lift m tas 0 = m * 9.80665 := by
    have ht0 : 0 < tas * 0.514444 := by
      rw [ht]
      unfold mach2tas
      have : 0 < M := by linarith
      positivity
    have := (Verif.Geo.cos_atan2 0 (tas * 0.514444)).1
    rw [zero_pow two_ne_zero, add_zero, Real.sqrt_sq ht0.le] at this
    unfold Drag.lift
    rw [zero_mul, mul_right_cancel₀ ht0.ne' (this.trans (one_mul _).symm), mul_one]
  unfold Drag.clean
  simp only [Bool.false_eq_true, if_false]
  rw [Drag.calcDrag_eq, hq, hl]
  norm_num
  ring

/-- Cruise thrust at the reference height of the thrust model. -/
theorem thrust_at {P : Thrust.Params ℝ} {M h tas alt : ℝ} (hM : 0.5 ≤ M)
    (hF : P.cruiseThrust * P.number ≠ 0) (h1 : 30000 < alt)
    (ht : tas * 0.514444 = mach2tas np M h 0) (ha : alt * 0.3048 = h)
    (hc : P.cruiseAlt * 0.3048 = h) :
    Thrust.cruise np P tas alt 0 =
      (M / P.cruiseMach) ^ (-0.11 : ℝ) * (P.cruiseThrust * P.number) := by
  have hv := vsound_pos h 0
  have hv' := Verif.Gen.vsound_lower h
  have h10 : max 10 tas = tas := by
    refine max_eq_right ?_
    have : 0.5 * 295 ≤ tas * 0.514444 := by
      rw [ht]
      unfold mach2tas
      nlinarith
    norm_num at this
    linarith
  unfold Thrust.cruise
  rw [Thrust.climb_eq P hF, if_pos h1]
  unfold Thrust.seg3 Thrust.mratio Thrust.pratio
  rw [h10, ha, hc, div_self (pressure_pos h 0).ne', Real.log_one, mul_zero, zero_add, ht]
  congr 3
  unfold tas2mach mach2tas
  field_simp

/-! ## Enclosures -/

/-- A table number. -/
def iN (n : ℕ) : Iv := rat n 10000000000000000

theorem has_iN (n : ℕ) : Has (iN n) (real n) := by
  refine cast (congrArg _ ?_) (Interval.has_rat n 10000000000000000)
  unfold real
  norm_num

def iForce (M h S : ℕ) : Iv :=
  Interval.mul (Interval.mul (Interval.mul (rat 1 2)
    (Interval.mul (Interval.mul (rat 1225 1000)
      (Interval.exp (Interval.mul (rat 4256848030018761 1000000000000000)
        (Interval.log (rat 21665 28815)))))
      (Interval.exp (Interval.div (Interval.neg (Interval.sub (iN h) (rat 11000 1)))
        (rat 6341552161 1000000)))))
    (Interval.mul (rat 8706600599970 100000000) (Interval.mul (iN M) (iN M)))) (iN S)

theorem has_iForce (M h S : ℕ) : Has (iForce M h S) (force (real M) (real h) (real S)) := by
  have a1 := Interval.has_rat 1 2
  have a2 := Interval.has_rat 1225 1000
  have a3 := Interval.has_rat 4256848030018761 1000000000000000
  have a4 := (Interval.has_rat 21665 28815).log
  have a5 := ((has_iN h).sub (Interval.has_rat 11000 1)).neg.div (Interval.has_rat 6341552161 1000000)
  have a6 := Interval.has_rat 8706600599970 100000000
  have := ((a1.mul ((a2.mul (a3.mul a4).exp).mul a5.exp)).mul
    (a6.mul ((has_iN M).mul (has_iN M)))).mul (has_iN S)
  refine cast (congrArg _ ?_) this
  unfold force
  rw [Real.rpow_def_of_pos (by norm_num), mul_comm (Real.log _),
    show ((1:ℤ):ℝ) / (2:ℤ) = 0.5 by norm_num, show ((1225:ℤ):ℝ) / (1000:ℤ) = 1.225 by norm_num,
    show ((4256848030018761:ℤ):ℝ) / (1000000000000000:ℤ) = 4.256848030018761 by norm_num,
    show ((21665:ℤ):ℝ) / (28815:ℤ) = 216.65 / 288.15 by norm_num,
    show ((11000:ℤ):ℝ) / (1:ℤ) = 11000 by norm_num,
    show ((6341552161:ℤ):ℝ) / (1000000:ℤ) = 6341.552161 by norm_num,
    show ((8706600599970:ℤ):ℝ) / (100000000:ℤ) = 401.874018 * 216.65 by norm_num]

/-- Drag of mass `m`. -/
def iDrag (a : AircraftRow) (p : PolarRow) (m : ℕ) : Iv :=
  let q := iForce a.mach a.height a.area
  let w := Interval.mul (iN m) (rat 980665 100000)
  Interval.add (Interval.mul (iN p.cd0) q) (Interval.div (Interval.mul (iN p.k) (Interval.mul w w)) q)

theorem has_iDrag (a : AircraftRow) (p : PolarRow) (m : ℕ) : Has (iDrag a p m)
    (real p.cd0 * force (real a.mach) (real a.height) (real a.area) +
      real p.k * (real m * 9.80665 * (real m * 9.80665)) /
        force (real a.mach) (real a.height) (real a.area)) := by
  have q := has_iForce a.mach a.height a.area
  have w : Has (Interval.mul (iN m) (rat 980665 100000)) (real m * 9.80665) := by
    refine cast (congrArg _ ?_) ((has_iN m).mul (Interval.has_rat 980665 100000))
    norm_num
  exact ((has_iN _).mul q).add (((has_iN _).mul (w.mul w)).div q)

/-- Mach number and thrust of the engine at cruise. -/
def iRef (a : AircraftRow) (e : EngineRow) : Iv × Iv :=
  if 0 < e.cruiseMach.getD 0 then (iN (e.cruiseMach.getD 0), iN (e.cruiseThrust.getD 0))
  else (iN a.mach, Interval.add (Interval.mul (rat 1 5) (iN (e.maxThrust.getD 0))) (rat 890 1))

/-- Thrust. -/
def iThrust (a : AircraftRow) (e : EngineRow) : Iv :=
  Interval.mul (Interval.exp (Interval.mul (rat (-11) 100)
    (Interval.log (Interval.div (iN a.mach) (iRef a e).1)))) (Interval.mul (iRef a e).2 (iN a.number))

theorem has_iRef {a : AircraftRow} {e : EngineRow} {P : Thrust.Params ℝ}
    (h : thrustParams a e = Defined.liftThrust P) :
    Has (iRef a e).1 P.cruiseMach ∧ Has (iRef a e).2 P.cruiseThrust := by
  unfold thrustParams Defined.liftThrust at h
  injection h with _ _ _ _ h5 h6
  unfold iRef
  by_cases hp : 0 < e.cruiseMach.getD 0
  · rw [if_pos hp] at h5 h6
    rw [if_pos hp]
    rcases e1 : e.cruiseMach with _ | c
    · rw [e1] at hp; simp at hp
    rcases e2 : e.cruiseThrust with _ | t
    · rw [e2] at h6; cases h6
    rw [e1] at h5
    rw [e2] at h6
    injection h5 with h5
    injection h6 with h6
    exact ⟨h5 ▸ has_iN c, h6 ▸ has_iN t⟩
  · rw [if_neg hp] at h5 h6
    rw [if_neg hp]
    rcases e2 : e.maxThrust with _ | t
    · rw [e2] at h6; cases h6
    rw [e2] at h6
    injection h5 with h5
    injection h6 with h6
    refine ⟨h5 ▸ has_iN _, ?_⟩
    rw [← h6]
    refine cast (congrArg _ ?_)
      (((Interval.has_rat 1 5).mul (has_iN t)).add (Interval.has_rat 890 1))
    norm_num

theorem has_iThrust {a : AircraftRow} {e : EngineRow} {P : Thrust.Params ℝ}
    (h : thrustParams a e = Defined.liftThrust P) (hM : 0 < real a.mach) (hc : 0 < P.cruiseMach) :
    Has (iThrust a e) ((real a.mach / P.cruiseMach) ^ (-0.11 : ℝ) * (P.cruiseThrust * P.number)) := by
  have r := has_iRef h
  have n : P.number = real a.number := by
    unfold thrustParams Defined.liftThrust at h
    injection h with _ _ _ h4
    injection h4 with h4
    exact h4.symm
  have := (((Interval.has_rat (-11) 100).mul ((has_iN a.mach).div r.1).log).exp).mul
    (r.2.mul (has_iN a.number))
  refine cast (congrArg _ ?_) this
  rw [Real.rpow_def_of_pos (div_pos hM hc), n, mul_comm (Real.log _)]
  norm_num

/-! ## The shipped files -/

def names (l : List String) : List Str := l.map (·.toList.map Char.toNat)

/-- Types whose engines balance the drag up to the maximum landing weight only. -/
def heavy : List String :=
  ["a124", "a306", "a321", "a332", "a333", "a343", "a359", "a388", "b38m", "b39m", "b3xm", "b744",
    "b748", "b772", "b773", "b77l", "b77w", "b788", "b789", "md11"]

/-- Types whose engines never do. -/
def weak : List String := ["c550", "c25a", "c525", "c56x"]

def balanced (ac : Str) (a : AircraftRow) (e : EngineRow) (p : PolarRow) : Bool :=
  decide (110000000000000000000 ≤ a.height ∧ a.height ≤ 150000000000000000000 ∧
    5000000000000000 ≤ a.mach ∧ 10000000000000000 ≤ a.area) &&
  (if ac ∈ names weak then
    Interval.below 0 1 (Interval.sub (iThrust a e) (iDrag a p a.oew))
  else if ac ∈ names heavy then
    Interval.above 0 1 (Interval.sub (iThrust a e) (iDrag a p a.mlw)) &&
    Interval.below 0 1 (Interval.sub (iThrust a e) (iDrag a p a.mtow))
  else Interval.above 0 1 (Interval.sub (iThrust a e) (iDrag a p a.mtow)))

theorem shipped_balanced : (availableAircraft shipped true).all (fun ac =>
    match thrust shipped ac none (some true) false, drag shipped ac (some true) with
    | .ok t, .ok d => balanced ac t.1 t.2 d.2
    | _, _ => false) = true := by
  decide +kernel

/-- What the check says about one type: its records, and thrust and drag as functions of the mass. -/
theorem balanced_spec {ac : Str} {a : AircraftRow} {e : EngineRow} {p : PolarRow}
    {P : Thrust.Params ℝ} (h : balanced ac a e p = true)
    (hP : thrustParams a e = Defined.liftThrust P) (hc : 0 < P.cruiseMach)
    (hF : 0 < P.cruiseThrust * P.number) (hk : 0 < real p.k) {tas alt : ℝ}
    (ht : tas = mach2tas np (real a.mach) (real a.height) 0 / 0.514444)
    (ha : alt = real a.height / 0.3048) :
    (ac ∈ names weak → ∀ m, real a.oew ≤ m → Thrust.cruise np P tas alt 0 <
      Drag.clean np (airframe a) (polarParams p) false m tas alt 0 0) ∧
    (ac ∉ names weak → ac ∈ names heavy → (∀ m, 0 ≤ m → m ≤ real a.mlw →
      Drag.clean np (airframe a) (polarParams p) false m tas alt 0 0 < Thrust.cruise np P tas alt 0) ∧
      ∀ m, real a.mtow ≤ m → Thrust.cruise np P tas alt 0 <
        Drag.clean np (airframe a) (polarParams p) false m tas alt 0 0) ∧
    (ac ∉ names weak → ac ∉ names heavy → ∀ m, 0 ≤ m → m ≤ real a.mtow →
      Drag.clean np (airframe a) (polarParams p) false m tas alt 0 0 <
        Thrust.cruise np P tas alt 0) := by
  unfold balanced at h
  rw [Bool.and_eq_true, decide_eq_true_eq] at h
  obtain ⟨⟨b1, b2, b3, b4⟩, h⟩ := h
  have c1 : 11000 ≤ real a.height := by
    have := real_le b1
    unfold real at this ⊢
    norm_num at this ⊢
    linarith
  have c2 : real a.height ≤ 15000 := by
    have := real_le b2
    unfold real at this ⊢
    norm_num at this ⊢
    linarith
  have c3 : 0.5 ≤ real a.mach := by
    have := real_le b3
    unfold real at this ⊢
    norm_num at this ⊢
    linarith
  have c4 : 1 ≤ (airframe a).area := by
    show 1 ≤ real a.area
    have := real_le b4
    unfold real at this ⊢
    norm_num at this ⊢
    linarith
  have ht' : tas * 0.514444 = mach2tas np (real a.mach) (real a.height) 0 := by
    rw [ht]; field_simp
  have ha' : alt * 0.3048 = real a.height := by rw [ha]; field_simp
  have hcr : P.cruiseAlt * 0.3048 = real a.height := by
    unfold thrustParams Defined.liftThrust at hP
    injection hP with h1
    injection h1 with h1
    rw [← h1]
    unfold ft
    field_simp
  have hal : 30000 < alt := by
    rw [ha, lt_div_iff₀ (by norm_num)]
    linarith
  have eF := thrust_at c3 hF.ne' hal ht' ha' hcr
  have iF := has_iThrust hP (by linarith) hc
  rw [← eF] at iF
  have eD : ∀ m, Drag.clean np (airframe a) (polarParams p) false m tas alt 0 0 = _ :=
    drag_at (pol := polarParams p) c1 c3 c4 c2 ht' ha'
  have hq : 0 < force (real a.mach) (real a.height) (airframe a).area :=
    force_pos (by linarith) (by linarith)
  have mono : ∀ {m m' : ℝ}, 0 ≤ m → m ≤ m' →
      Drag.clean np (airframe a) (polarParams p) false m tas alt 0 0 ≤
        Drag.clean np (airframe a) (polarParams p) false m' tas alt 0 0 := by
    intro m m' h0 h1
    rw [eD, eD]
    have : 0 < (polarParams p).k := hk
    have h0' : 0 ≤ m' := h0.trans h1
    have h0'' : 0 ≤ m' * 9.80665 := by positivity
    gcongr
  have iD : ∀ n : ℕ, Has (iDrag a p n)
      (Drag.clean np (airframe a) (polarParams p) false (real n) tas alt 0 0) := by
    intro n
    rw [eD]
    exact has_iDrag a p n
  have up : ∀ n : ℕ, Interval.above 0 1 (Interval.sub (iThrust a e) (iDrag a p n)) = true →
      Drag.clean np (airframe a) (polarParams p) false (real n) tas alt 0 0 <
        Thrust.cruise np P tas alt 0 := by
    intro n hn
    have := Interval.of_above hn (iF.sub (iD n))
    norm_num at this
    linarith
  have down : ∀ n : ℕ, Interval.below 0 1 (Interval.sub (iThrust a e) (iDrag a p n)) = true →
      Thrust.cruise np P tas alt 0 <
        Drag.clean np (airframe a) (polarParams p) false (real n) tas alt 0 0 := by
    intro n hn
    have := Interval.of_below hn (iF.sub (iD n))
    norm_num at this
    linarith
  refine ⟨fun k1 m hm => ?_, fun k1 k2 => ?_, fun k1 k2 m h0 hm => ?_⟩
  · rw [if_pos k1] at h
    exact (down _ h).trans_le (mono (real_nonneg _) hm)
  · rw [if_neg k1, if_pos k2, Bool.and_eq_true] at h
    exact ⟨fun m h0 hm => (mono h0 hm).trans_lt (up _ h.1),
      fun m hm => (down _ h.2).trans_le (mono (real_nonneg _) hm)⟩
  · rw [if_neg k1, if_neg k2] at h
    exact (mono h0 hm).trans_lt (up _ h)

end Verif.Feasible
