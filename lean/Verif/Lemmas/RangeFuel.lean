import Verif.Lemmas.Feasible
import Verif.Lemmas.Fuel
import Verif.Model.Mass

/-!
# Fuel for a distance

Cruise fuel flow at the height and Mach number of the aircraft file, enclosed by interval arithmetic.
-/

namespace Verif.RangeFuel
open Verif Verif.Aero Verif.Tables Verif.Construct Verif.Registry Verif.Feasible
open Verif.Interval (Iv Has rat)
open Verif.Data (shipped)

/-- The limiter of the thrust ratio. -/
def iLimiter (r : Iv) : Iv :=
  Interval.add (Interval.div (Interval.sub
    (Interval.log (Interval.add (rat 1 1) (Interval.exp (Interval.mul (rat 50 1)
      (Interval.sub r (rat 3 100))))))
    (Interval.log (Interval.add (rat 1 1) (Interval.exp (Interval.mul (rat 45 1)
      (Interval.sub r (rat 12 10)))))))
    (Interval.log (Interval.add (rat 1 1) (Interval.exp (rat 50 1))))) (rat 3 100)

theorem has_iLimiter {I : Iv} {r : ℝ} (h : Has I r) : Has (iLimiter I) (Fuel.limiter np r) := by
  have a1 := Interval.has_rat 1 1
  have a50 := Interval.has_rat 50 1
  have a45 := Interval.has_rat 45 1
  have a3 := Interval.has_rat 3 100
  have a12 := Interval.has_rat 12 10
  have := (((a1.add (a50.mul (h.sub a3)).exp).log.sub (a1.add (a45.mul (h.sub a12)).exp).log).div
    (a1.add a50.exp).log).add a3
  refine cast (congrArg _ ?_) this
  simp only [Fuel.limiter, np]
  norm_num

/-- The scale of the fuel model. -/
def iScale : Option (ℕ × Option ℕ) → Iv
  | none => rat 1 1
  | some (n, none) => iN n
  | some (n, some d) => Interval.div (iN n) (iN d)

theorem has_iScale (o : Option (ℕ × Option ℕ)) : Has (iScale o) (scale o) := by
  rcases o with _ | ⟨n, _ | d⟩
  · exact Interval.has_one
  · exact has_iN n
  · exact (has_iN n).div (has_iN d)

/-- Fuel flow at a thrust. -/
def iFlow (f : FuelParts) (T : Iv) : Iv :=
  let x := iLimiter (Interval.div (Interval.div T (iN f.ac.number)) (iN (f.eng.maxThrust.getD 0)))
  Interval.mul (Interval.mul (iScale f.model.2) (Interval.sub (iN f.model.1.c1)
    (Interval.exp (Interval.mul (Interval.neg (iN f.model.1.c2))
      (Interval.sub (Interval.mul x (Interval.exp (Interval.mul (iN f.model.1.c3) x)))
        (Interval.div (Interval.log (iN f.model.1.c1)) (iN f.model.1.c2))))))) (iN f.ac.number)

theorem has_iFlow {f : FuelParts} {F : Fuel.Params ℝ} (h : fuelParams f = Defined.liftFuel F)
    {I : Iv} {T : ℝ} (hT : Has I T) : Has (iFlow f I) (Fuel.atThrust np F T) := by
  unfold fuelParams Defined.liftFuel at h
  injection h with h1 h2 h3 h4 h5 h6
  rcases e : f.eng.maxThrust with _ | t
  · rw [e] at h5; cases h5
  rw [e] at h5
  injection h1 with h1
  injection h2 with h2
  injection h3 with h3
  injection h4 with h4
  injection h5 with h5
  injection h6 with h6
  have x := has_iLimiter ((hT.div (has_iN f.ac.number)).div (has_iN t))
  have := ((has_iScale f.model.2).mul ((has_iN f.model.1.c1).sub ((has_iN f.model.1.c2).neg.mul
    ((x.mul ((has_iN f.model.1.c3).mul x).exp).sub
      ((has_iN f.model.1.c1).log.div (has_iN f.model.1.c2)))).exp)).mul (has_iN f.ac.number)
  unfold iFlow
  rw [e]
  refine cast (congrArg _ ?_) this
  simp only [Fuel.atThrust, Fuel.funcFuel, ← h1, ← h2, ← h3, ← h4, ← h5, ← h6]
  rfl

/-- Speed at Mach `M` in the isothermal layer. -/
def iSpeed (M : ℕ) : Iv :=
  Interval.mul (iN M) (Interval.exp (Interval.mul (rat 1 2) (Interval.log (rat 8706600599970 100000000))))

theorem has_iSpeed (M : ℕ) {h : ℝ} (hh : 11000 ≤ h) : Has (iSpeed M) (mach2tas np (real M) h 0) := by
  have := (has_iN M).mul ((Interval.has_rat 1 2).mul (Interval.has_rat 8706600599970 100000000).log).exp
  refine cast (congrArg _ ?_) this
  unfold mach2tas
  rw [show ((8706600599970:ℤ):ℝ) / (100000000:ℤ) = vsound np h 0 ^ 2 by
      rw [sq, vsound_sq hh]; norm_num, Real.log_pow]
  rw [show ((1:ℤ):ℝ) / (2:ℤ) * ((2:ℕ) * Real.log (vsound np h 0)) = Real.log (vsound np h 0) by
    push_cast; ring, Real.exp_log (vsound_pos h 0)]

/-- Fuel burnt over `R` units of `u` metres at mass `m`, less the fuel for full tanks. -/
def iDeficit (f : FuelParts) (u : ℤ) (R m : ℕ) : Iv :=
  Interval.sub (Interval.mul (Interval.mul (iFlow f (iDrag f.ac f.drag.2 m)) (rat u 1)) (iN R))
    (Interval.mul (Interval.mul (iN f.ac.mfc) (rat 8025 10000)) (iSpeed f.ac.mach))

/-- The check for one type: `lo` lists the types short of fuel at every mass, `hi` those with enough at
every mass. -/
def sorted (lo hi : List Str) (u : ℤ) (ac : Str) (f : FuelParts) : Bool :=
  decide (110000000000000000000 ≤ f.ac.height ∧ f.ac.height ≤ 150000000000000000000 ∧
    5000000000000000 ≤ f.ac.mach ∧ 10000000000000000 ≤ f.ac.area ∧ 0 < f.ac.oew ∧ 0 < f.ac.mtow) &&
  match f.ac.range with
  | none => true
  | some R => decide (0 < R) &&
    if ac ∈ lo then Interval.above 0 1 (iDeficit f u R f.ac.oew)
    else if ac ∈ hi then Interval.below 0 1 (iDeficit f u R f.ac.mtow)
    else Interval.below 0 1 (iDeficit f u R f.ac.oew) && Interval.above 0 1 (iDeficit f u R f.ac.mtow)

def allSorted (lo hi : List Str) (u : ℤ) : Bool := (availableAircraft shipped true).all (fun ac =>
  match fuel shipped ac none (some true) false with
  | .ok f => sorted lo hi u ac f
  | _ => false)

/-- Codes for which the documented unit, nautical miles, leaves the aircraft short of fuel. -/
def shortNm : List String :=
  ["a320", "a332", "a343", "a359", "a388", "b37m", "b38m", "b39m", "b3xm", "b739", "b744", "b748",
    "b752", "b763", "b772", "b773", "b77w", "b788", "b789", "c550", "e170", "e190", "e195", "e75l",
    "glf6", "a124", "a306", "b762", "b77l", "c25a", "c525", "c56x", "e290", "glf5", "gl5t", "lj45",
    "md11", "pc24", "su95"]

/-- Codes for which it does not. -/
def fullNm : List String := ["a318", "a319", "a310"]

/-- The same with kilometres. -/
def shortKm : List String := ["b763", "c550", "b762", "c25a", "c525", "c56x"]

/-- The same with kilometres. -/
def fullKm : List String :=
  ["a19n", "a20n", "a21n", "a318", "a319", "a320", "a321", "a332", "a333", "b38m", "b3xm", "b734",
    "b737", "b738", "b739", "b788", "e145", "e190", "e195", "e75l", "a310", "at72", "at75", "at76",
    "b733", "b735", "crj2", "e290", "su95"]

theorem shipped_nm : allSorted (names shortNm) (names fullNm) 1852 = true := by decide +kernel
theorem shipped_km : allSorted (names shortKm) (names fullKm) 1000 = true := by decide +kernel

theorem level_enroute (F : Fuel.Params ℝ) (ac : Drag.Airframe ℝ) (pol : Drag.Polar ℝ)
    (m tas alt : ℝ) (ht : 0 < tas) (limit : Bool) :
    Fuel.enroute np F ac pol false m tas alt 0 0 0 limit =
      Fuel.atThrust np F (Drag.clean np ac pol false m tas alt 0 0) := by
  have h : Real.sin (atan2R (0 * 0.00508) (tas * 0.514444)) = 0 := by
    have := (Verif.Geo.cos_atan2 (0 * 0.00508) (tas * 0.514444)).2
    rw [zero_mul] at this ⊢
    rw [zero_pow two_ne_zero, add_zero, Real.sqrt_sq (by positivity)] at this
    exact (mul_eq_zero.1 this).resolve_right (by positivity)
  simp only [Fuel.enroute, Fuel.enrouteThrust, fpm, kts]
  have e : np.sin (np.arctan2 (0 * 0.00508) (tas * 0.514444)) = 0 := h
  rw [e]
  ring_nf

/-- What the check says about one type. `burnt m` is the fuel for the distance at mass `m`. -/
theorem sorted_spec {lo hi : List Str} {u : ℤ} (hu : 0 < u) {ac : Str} {f : FuelParts} {R : ℕ}
    {F : Fuel.Params ℝ} (h : sorted lo hi u ac f = true) (hR : f.ac.range = some R)
    (hF : fuelParams f = Defined.liftFuel F) (hf : Fuel.Ok F) (h0 : 0 < real f.drag.2.cd0)
    (hk : 0 < real f.drag.2.k) {tas alt d : ℝ} (limit : Bool)
    (ht : tas = mach2tas np (real f.ac.mach) (real f.ac.height) 0 / 0.514444)
    (ha : alt = real f.ac.height / 0.3048) (hd1 : 0.2 * real R ≤ d) (hd2 : d ≤ real R)
    (hac : aircraft shipped ac true = .ok f.ac) :
    ∃ M, Mass.fromRange shipped ac d 0 false true = .ok M ∧
      let burnt := fun m => Fuel.enroute np F (airframe f.ac) (polarParams f.drag.2) false m tas alt
        0 0 0 limit * (d * u / (tas * 0.514444))
      (ac ∈ lo → ∀ m, real f.ac.oew ≤ m → M - real f.ac.oew < burnt m) ∧
      (ac ∉ lo → ac ∈ hi → ∀ m, 0 ≤ m → m ≤ real f.ac.mtow → burnt m < M - real f.ac.oew) ∧
      (ac ∉ lo → ac ∉ hi → burnt (real f.ac.oew) < M - real f.ac.oew ∧
        M - real f.ac.oew < burnt (real f.ac.mtow)) := by
  unfold sorted at h
  rw [Bool.and_eq_true, decide_eq_true_eq, hR] at h
  obtain ⟨⟨b1, b2, b3, b4, b5, b6⟩, h⟩ := h
  dsimp only at h
  rw [Bool.and_eq_true, decide_eq_true_eq] at h
  obtain ⟨hR0, h⟩ := h
  have hR0 := real_pos hR0
  have c1 : 11000 ≤ real f.ac.height := by
    have := real_le b1
    unfold real at this ⊢
    norm_num at this ⊢
    linarith
  have c2 : real f.ac.height ≤ 15000 := by
    have := real_le b2
    unfold real at this ⊢
    norm_num at this ⊢
    linarith
  have c3 : 0.5 ≤ real f.ac.mach := by
    have := real_le b3
    unfold real at this ⊢
    norm_num at this ⊢
    linarith
  have c4 : 1 ≤ (airframe f.ac).area := by
    show 1 ≤ real f.ac.area
    have := real_le b4
    unfold real at this ⊢
    norm_num at this ⊢
    linarith
  have ht' : tas * 0.514444 = mach2tas np (real f.ac.mach) (real f.ac.height) 0 := by
    rw [ht]; field_simp
  have ha' : alt * 0.3048 = real f.ac.height := by rw [ha]; field_simp
  have hv : 0 < tas * 0.514444 := by
    rw [ht']
    have := vsound_pos (real f.ac.height) 0
    unfold mach2tas
    have : 0 < real f.ac.mach := by linarith
    positivity
  have ht0 : 0 < tas := by
    by_contra hc
    nlinarith
  have eD : ∀ m, Drag.clean np (airframe f.ac) (polarParams f.drag.2) false m tas alt 0 0 = _ :=
    drag_at (pol := polarParams f.drag.2) c1 c3 c4 c2 ht' ha'
  have hq : 0 < force (real f.ac.mach) (real f.ac.height) (airframe f.ac).area :=
    force_pos (by linarith) (by linarith)
  have hcd : 0 < (polarParams f.drag.2).cd0 := h0
  have hkk : 0 < (polarParams f.drag.2).k := hk
  have hpos : ∀ m, 0 < Drag.clean np (airframe f.ac) (polarParams f.drag.2) false m tas alt 0 0 := by
    intro m
    rw [eD]
    have := mul_self_nonneg (m * 9.80665)
    positivity
  have mono : ∀ {m m' : ℝ}, 0 ≤ m → m ≤ m' →
      Fuel.atThrust np F (Drag.clean np (airframe f.ac) (polarParams f.drag.2) false m tas alt 0 0) ≤
        Fuel.atThrust np F
          (Drag.clean np (airframe f.ac) (polarParams f.drag.2) false m' tas alt 0 0) := by
    intro m m' m0 m1
    have hle : Drag.clean np (airframe f.ac) (polarParams f.drag.2) false m tas alt 0 0 ≤
        Drag.clean np (airframe f.ac) (polarParams f.drag.2) false m' tas alt 0 0 := by
      rw [eD, eD]
      have h0' : 0 ≤ m' := m0.trans m1
      have h0'' : 0 ≤ m' * 9.80665 := by positivity
      gcongr
    rcases hle.eq_or_lt with e | e
    · rw [e]
    · refine (Fuel.atThrust_strictMono F hf ?_ e).le
      have := mul_pos hf.num hf.max
      have := hpos m
      linarith
  have iDef : ∀ n : ℕ, Has (iDeficit f u R n)
      (Fuel.atThrust np F
        (Drag.clean np (airframe f.ac) (polarParams f.drag.2) false (real n) tas alt 0 0) * u * real R -
        real f.ac.mfc * 0.8025 * (tas * 0.514444)) := by
    intro n
    have i1 : Has (iDrag f.ac f.drag.2 n)
        (Drag.clean np (airframe f.ac) (polarParams f.drag.2) false (real n) tas alt 0 0) := by
      rw [eD]
      exact has_iDrag f.ac f.drag.2 n
    have i2 := ((has_iFlow hF i1).mul (Interval.has_rat u 1)).mul (has_iN R)
    have i3 := ((has_iN f.ac.mfc).mul (Interval.has_rat 8025 10000)).mul (has_iSpeed f.ac.mach c1)
    refine cast (congrArg _ ?_) (i2.sub i3)
    rw [ht']
    norm_num
  have hu' : (0:ℝ) < u := by exact_mod_cast hu
  have hd0 : 0 < d := by
    have : 0 < 0.2 * real R := by positivity
    linarith
  have hM : Mass.fromRange shipped ac d 0 false true =
      .ok (real f.ac.oew + d / real R * (real f.ac.mfc * 0.8025)) := by
    unfold Mass.fromRange
    rw [hac]
    dsimp only
    rw [hR]
    dsimp only
    congr 1
    unfold Mass.mass
    have : clipR (d / real R) 0.2 1 = d / real R := by
      unfold clipR
      rw [max_eq_left (by rw [le_div_iff₀ hR0]; exact hd1), min_eq_left]
      rw [div_le_one hR0]; exact hd2
    simp only [this, Bool.false_eq_true, if_false]
    ring
  refine ⟨_, hM, ?_⟩
  have conv : ∀ x, x * (d * u / (tas * 0.514444)) - d / real R * (real f.ac.mfc * 0.8025) =
      d / (real R * (tas * 0.514444)) *
        (x * u * real R - real f.ac.mfc * 0.8025 * (tas * 0.514444)) := by
    intro x
    field_simp
  have hfac : 0 < d / (real R * (tas * 0.514444)) := by positivity
  have up : ∀ n : ℕ, Interval.above 0 1 (iDeficit f u R n) = true → ∀ m, real n ≤ m →
      real f.ac.oew + d / real R * (real f.ac.mfc * 0.8025) - real f.ac.oew <
        Fuel.enroute np F (airframe f.ac) (polarParams f.drag.2) false m tas alt 0 0 0 limit *
          (d * u / (tas * 0.514444)) := by
    intro n hn m hm
    have h1 := Interval.of_above hn (iDef n)
    rw [Int.cast_zero, zero_div] at h1
    have h2 := mul_pos hfac h1
    rw [← conv] at h2
    rw [level_enroute _ _ _ _ _ _ ht0]
    have h3 := mul_le_mul_of_nonneg_right (mono (real_nonneg n) hm)
      (by positivity : 0 ≤ d * u / (tas * 0.514444))
    linarith
  have down : ∀ n : ℕ, Interval.below 0 1 (iDeficit f u R n) = true → ∀ m, 0 ≤ m → m ≤ real n →
      Fuel.enroute np F (airframe f.ac) (polarParams f.drag.2) false m tas alt 0 0 0 limit *
          (d * u / (tas * 0.514444)) <
        real f.ac.oew + d / real R * (real f.ac.mfc * 0.8025) - real f.ac.oew := by
    intro n hn m m0 hm
    have h1 := Interval.of_below hn (iDef n)
    rw [Int.cast_zero, zero_div] at h1
    have h2 := mul_neg_of_pos_of_neg hfac h1
    rw [← conv] at h2
    rw [level_enroute _ _ _ _ _ _ ht0]
    have h3 := mul_le_mul_of_nonneg_right (mono m0 hm)
      (by positivity : 0 ≤ d * u / (tas * 0.514444))
    linarith
  refine ⟨fun k1 m hm => ?_, fun k1 k2 m m0 hm => ?_, fun k1 k2 => ?_⟩
  · rw [if_pos k1] at h
    exact up _ h m hm
  · rw [if_neg k1, if_pos k2] at h
    exact down _ h m m0 hm
  · rw [if_neg k1, if_neg k2, Bool.and_eq_true] at h
    exact ⟨down _ h.1 _ (real_nonneg _) le_rfl, up _ h.2 _ le_rfl⟩

end Verif.RangeFuel
