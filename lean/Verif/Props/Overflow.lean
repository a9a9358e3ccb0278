import Verif.Lemmas.OverflowFuel
import Verif.Props.Construct

/-!
# C128: fuel flow when the exponentials overflow
-/

namespace Verif.Props
open Verif Verif.Spec Verif.Aero Verif.Data Verif.Registry Verif.Tables Verif.Construct Real
open Verif.XR (fin nan)

/-- **C128 (thrust).** With overflow at `Ω`, `at_thrust` computes the exact fuel flow while the first
exponential of its limiter is finite, the upper limit of the fuel flow when only the first one
overflows, and NaN as soon as both do. -/
theorem C128_at_thrust {Ω : ℝ} (hΩ : (10 : ℝ) ^ 30 < Ω) (f : Fuel.Params ℝ)
    (hf : FuelRange f.scale f.c1 f.c2 f.c3 f.maxThrust f.number) (T : ℝ) (hT : |T| ≤ 10 ^ 25) :
    Fuel.atThrust (ovf Ω) (Rec.fuel fin f) (fin T) =
      if 1 + exp (50 * (T / (f.number * f.maxThrust) - 0.03)) < Ω then fin (Fuel.atThrust np f T)
      else if 1 + exp (45 * (T / (f.number * f.maxThrust) - 1.2)) < Ω then
        fin (f.scale * f.c1 * f.number)
      else nan := by
  rw [← div_div]
  split_ifs with h1 h2
  · exact XR.atThrust_exact hΩ hf hT h1
  · exact XR.atThrust_saturated hΩ hf hT (not_lt.1 h1) h2
  · exact XR.atThrust_nan hΩ hf hT (not_lt.1 h2)

theorem exp_lt_two_pow {x : ℝ} {n : ℕ} (h : x + 0.001 ≤ n * 0.69314718) (hx : 10 ≤ x) :
    1 + exp x < 2 ^ n := by
  have h2 := log_two_gt_d9
  have hn : (0 : ℝ) ≤ n := Nat.cast_nonneg n
  have e1 : exp (x + 0.001) ≤ 2 ^ n := by
    calc exp (x + 0.001) ≤ exp (n * log 2) := exp_le_exp.2 (by nlinarith)
      _ = 2 ^ n := by rw [exp_nat_mul, exp_log (by norm_num)]
  rw [exp_add] at e1
  have e2 := add_one_le_exp (0.001 : ℝ)
  have e3 : 2048 ≤ exp x := by
    have e10 : exp 10 = exp 1 ^ 10 := by rw [← exp_nat_mul]; norm_num
    calc (2048 : ℝ) ≤ 2.7 ^ 10 := by norm_num
      _ ≤ exp 1 ^ 10 := pow_le_pow_left₀ (by norm_num) (by have := exp_one_gt_d9; linarith) 10
      _ = exp 10 := e10.symm
      _ ≤ exp x := exp_le_exp.2 hx
  nlinarith

theorem two_pow_le_exp {x : ℝ} {n : ℕ} (h : n * 0.69314719 ≤ x) : (2 : ℝ) ^ n ≤ exp x := by
  have h2 := log_two_lt_d9
  have hn : (0 : ℝ) ≤ n := Nat.cast_nonneg n
  calc (2 : ℝ) ^ n = exp (n * log 2) := by rw [exp_nat_mul, exp_log (by norm_num)]
    _ ≤ exp x := exp_le_exp.2 (by nlinarith)

theorem regimes {Ω : ℝ} {n m : ℕ} {lo hi : ℝ} (hn : 127 ≤ n) (h1 : (2 : ℝ) ^ n ≤ Ω)
    (h2 : Ω ≤ (2 : ℝ) ^ m) (hlo : 50 * (lo - 0.03) + 0.001 ≤ n * 0.69314718) (hlo' : 1 ≤ lo)
    (hm : 127 ≤ m) (hhi : (m : ℕ) * 0.69314719 ≤ 45 * (hi - 1.2)) (f : Fuel.Params ℝ)
    (hf : FuelRange f.scale f.c1 f.c2 f.c3 f.maxThrust f.number) (T : ℝ) (hT : |T| ≤ 10 ^ 25) :
    (T ≤ lo * (f.number * f.maxThrust) →
      Fuel.atThrust (ovf Ω) (Rec.fuel fin f) (fin T) = fin (Fuel.atThrust np f T)) ∧
    (hi * (f.number * f.maxThrust) ≤ T →
      Fuel.atThrust (ovf Ω) (Rec.fuel fin f) (fin T) = nan) := by
  have hΩ : (10 : ℝ) ^ 30 < Ω := by
    refine lt_of_lt_of_le ?_ h1
    calc (10 : ℝ) ^ 30 < 2 ^ 127 := by norm_num
      _ ≤ 2 ^ n := pow_le_pow_right₀ (by norm_num) hn
  have hp : 0 < f.number * f.maxThrust :=
    mul_pos (by linarith [hf.hNum.1]) (by linarith [hf.hMax.1])
  rw [C128_at_thrust hΩ f hf T hT]
  constructor
  · intro h
    have hr : T / (f.number * f.maxThrust) ≤ lo := by rwa [div_le_iff₀ hp]
    rw [if_pos]
    have : exp (50 * (T / (f.number * f.maxThrust) - 0.03)) ≤ exp (50 * (lo - 0.03)) :=
      exp_le_exp.2 (by linarith)
    have := exp_lt_two_pow (x := 50 * (lo - 0.03)) hlo (by linarith)
    linarith
  · intro h
    have hr : hi ≤ T / (f.number * f.maxThrust) := by rwa [le_div_iff₀ hp]
    have k1 := two_pow_le_exp hhi
    have k2 : exp (45 * (hi - 1.2)) ≤ exp (45 * (T / (f.number * f.maxThrust) - 1.2)) :=
      exp_le_exp.2 (by linarith)
    have hpos : (0 : ℝ) < m := by exact_mod_cast (by omega : 0 < m)
    have h12 : 1.2 ≤ hi := by
      by_contra hc
      push Not at hc
      nlinarith
    have k3 : exp (45 * (T / (f.number * f.maxThrust) - 1.2)) ≤
        exp (50 * (T / (f.number * f.maxThrust) - 0.03)) := exp_le_exp.2 (by linarith)
    rw [if_neg (by linarith), if_neg (by linarith)]

theorem _root_.Verif.Spec.Double.big {Ω : ℝ} (h : Double Ω) : (10 : ℝ) ^ 30 < Ω := by
  refine lt_of_lt_of_le (b := (2 : ℝ) ^ 127) (by norm_num) (le_trans ?_ h.lower)
  exact pow_le_pow_right₀ (by norm_num) (by norm_num)

theorem _root_.Verif.Spec.Single.big {Ω : ℝ} (h : Single Ω) : (10 : ℝ) ^ 30 < Ω :=
  lt_of_lt_of_le (by norm_num) h.lower

theorem double_top : Double (2 ^ 1024) := ⟨pow_le_pow_right₀ (by norm_num) (by norm_num), le_rfl⟩
theorem single_top : Single (2 ^ 128) := ⟨pow_le_pow_right₀ (by norm_num) (by norm_num), le_rfl⟩

/-- **C128 (double precision).** Up to 14.2 times the maximum thrust of the engines nothing
overflows; from 17 times on the fuel flow is NaN. -/
theorem C128_double {Ω : ℝ} (h : Double Ω) (f : Fuel.Params ℝ)
    (hf : FuelRange f.scale f.c1 f.c2 f.c3 f.maxThrust f.number) (T : ℝ) (hT : |T| ≤ 10 ^ 25) :
    (T ≤ 14.2 * (f.number * f.maxThrust) →
      Fuel.atThrust (ovf Ω) (Rec.fuel fin f) (fin T) = fin (Fuel.atThrust np f T)) ∧
    (17 * (f.number * f.maxThrust) ≤ T →
      Fuel.atThrust (ovf Ω) (Rec.fuel fin f) (fin T) = nan) :=
  regimes (n := 1023) (m := 1024) (by norm_num) h.lower h.upper (by norm_num) (by norm_num) (by norm_num)
    (by norm_num) f hf T hT

/-- **C128 (single precision, JAX).** Up to 1.78 times the maximum thrust nothing overflows; from 3.2
times on the fuel flow is NaN. -/
theorem C128_single {Ω : ℝ} (h : Single Ω) (f : Fuel.Params ℝ)
    (hf : FuelRange f.scale f.c1 f.c2 f.c3 f.maxThrust f.number) (T : ℝ) (hT : |T| ≤ 10 ^ 25) :
    (T ≤ 1.78 * (f.number * f.maxThrust) →
      Fuel.atThrust (ovf Ω) (Rec.fuel fin f) (fin T) = fin (Fuel.atThrust np f T)) ∧
    (3.2 * (f.number * f.maxThrust) ≤ T →
      Fuel.atThrust (ovf Ω) (Rec.fuel fin f) (fin T) = nan) :=
  regimes (n := 127) (m := 128) (by norm_num) h.lower h.upper (by norm_num) (by norm_num) (by norm_num)
    (by norm_num) f hf T hT

/-- **C128 (flight).** Nothing overflows in the atmosphere, drag and required thrust of
`FuelFlow.enroute`: the fuel flow is that of the exact required thrust. -/
theorem C128_enroute {Ω : ℝ} (hΩ : (10 : ℝ) ^ 30 < Ω) (f : Fuel.Params ℝ) (ac : Drag.Airframe ℝ)
    (pol : Drag.Polar ℝ) (mass tas alt vs acc dT : ℝ) (limit : Bool)
    (h : Moderate ac.area pol.cd0 pol.k mass tas alt vs acc) :
    atmos (ovf Ω) (fin (alt * 0.3048)) (fin dT) = (fin (pressure np (alt * 0.3048) dT),
      fin (density np (alt * 0.3048) dT), fin (temperature np (alt * 0.3048) dT)) ∧
    Drag.clean (ovf Ω) (Rec.airframe fin ac) (Rec.polar fin pol) false (fin mass) (fin tas)
      (fin alt) (fin vs) (fin dT) = fin (Drag.clean np ac pol false mass tas alt vs dT) ∧
    Fuel.enroute (ovf Ω) (Rec.fuel fin f) (Rec.airframe fin ac) (Rec.polar fin pol) false (fin mass)
        (fin tas) (fin alt) (fin vs) (fin acc) (fin dT) limit =
      Fuel.atThrust (ovf Ω) (Rec.fuel fin f)
        (fin (Fuel.enrouteThrust np ac pol false mass tas alt vs acc dT)) ∧
    |Fuel.enrouteThrust np ac pol false mass tas alt vs acc dT| ≤ 10 ^ 25 := by
  obtain ⟨h1, h2⟩ := XR.enrouteThrust_fin (dT := dT) hΩ h
  refine ⟨XR.atmos_fin hΩ (XR.alt_le h.hAlt) dT, (XR.clean_fin hΩ h).1, ?_, h2.le.trans (by norm_num)⟩
  unfold Fuel.enroute
  simp only [h1]

theorem sin_level (tas : ℝ) : sin (atan2R (0 * 0.00508) (tas * 0.514444)) = 0 := by
  rw [zero_mul]
  by_cases h : 0 ≤ tas * 0.514444
  · have : atan2R 0 (tas * 0.514444) = 0 := by
      unfold atan2R
      exact Complex.arg_ofReal_of_nonneg h
    rw [this, sin_zero]
  · push Not at h
    have : atan2R 0 (tas * 0.514444) = π := by
      unfold atan2R
      exact Complex.arg_ofReal_of_neg h
    rw [this, sin_pi]

theorem density_sea (dT : ℝ) : density np 0 dT = 1.225 := by
  rw [density_eq]
  have : isaTemp 0 dT = 288.15 + shift dT := by unfold isaTemp; norm_num
  rw [this, div_self (T0s_pos dT).ne', one_rpow, max_eq_left (by norm_num)]
  simp

theorem density_le_sea {alt dT : ℝ} (ha : 0 ≤ alt) : density np (alt * 0.3048) dT ≤ 1.225 := by
  have h1 := (density_strictAnti dT).antitone (show (0 : ℝ) ≤ alt * 0.3048 by positivity)
  simpa only [density_sea] using h1

/-- Required thrust in slow level flight. -/
theorem slow_thrust (ac : Drag.Airframe ℝ) (pol : Drag.Polar ℝ) (mass tas alt acc dT q : ℝ)
    (hA : 1 ≤ ac.area) (h0 : 0 ≤ pol.cd0) (hk : 0 ≤ pol.k) (hm : 0 ≤ mass) (ha : 0 ≤ alt)
    (hacc : 0 ≤ acc) (hq : 0.6125 * (tas * 0.514444) ^ 2 ≤ q) (hq' : 0.001 ≤ q) :
    pol.k * (mass * 9.80665) ^ 2 / (q * ac.area) ≤
      Fuel.enrouteThrust np ac pol false mass tas alt 0 acc dT := by
  have hs := sin_level tas
  have hr : Fuel.enrouteThrust np ac pol false mass tas alt 0 acc dT =
      Drag.clean np ac pol false mass tas alt 0 dT +
        mass * 9.81 * sin (atan2R (0 * 0.00508) (tas * 0.514444)) + mass * acc := rfl
  have hc : Drag.clean np ac pol false mass tas alt 0 dT = pol.cd0 * Drag.qS ac tas alt dT +
      pol.k * Drag.lift mass tas 0 ^ 2 / Drag.qS ac tas alt dT := by
    have : Drag.clean np ac pol false mass tas alt 0 dT =
      Drag.calcDrag np ac mass tas alt (pol.cd0 + 0.0) pol.k 0 dT := rfl
    rw [this, Drag.calcDrag_eq]
    norm_num
  have hρ := density_le_sea (dT := dT) ha
  have qp := Drag.qS_pos ac tas alt dT
  have hρ0 := density_pos (alt * 0.3048) dT
  have hqS : Drag.qS ac tas alt dT ≤ q * ac.area := by
    unfold Drag.qS
    refine max_le ?_ ?_
    · refine mul_le_mul_of_nonneg_right ?_ (by linarith)
      calc 0.5 * density np (alt * 0.3048) dT * (tas * 0.514444) ^ 2
          ≤ 0.5 * 1.225 * (tas * 0.514444) ^ 2 := by gcongr
        _ ≤ q := by norm_num at hq ⊢; linarith
    · norm_num at hq' ⊢; nlinarith
  rw [hr, hs, hc, Drag.lift_level_sq]
  have h1 : pol.k * (mass * 9.80665) ^ 2 / (q * ac.area) ≤
      pol.k * (mass * 9.80665) ^ 2 / Drag.qS ac tas alt dT :=
    div_le_div_of_nonneg_left (by positivity) qp hqS
  have h2 := mul_nonneg h0 qp.le
  have h3 := mul_nonneg hm hacc
  linarith

/-- **C128 (slow flight).** So in level flight at a dynamic pressure `q` (at sea level; or higher up
at the same airspeed) so low that the induced drag reaches 17 times the maximum thrust in double
precision, 3.2 times in single precision, the fuel flow is NaN. -/
theorem C128_slow {Ω : ℝ} (f : Fuel.Params ℝ)
    (hf : FuelRange f.scale f.c1 f.c2 f.c3 f.maxThrust f.number) (ac : Drag.Airframe ℝ)
    (pol : Drag.Polar ℝ) (mass tas alt acc dT q : ℝ) (limit : Bool)
    (h : Moderate ac.area pol.cd0 pol.k mass tas alt 0 acc) (hA : 1 ≤ ac.area) (hm : 0 ≤ mass)
    (ha : 0 ≤ alt) (hacc : 0 ≤ acc) (hq : 0.6125 * (tas * 0.514444) ^ 2 ≤ q) (hq' : 0.001 ≤ q) :
    (Double Ω →
      17 * (f.number * f.maxThrust) ≤ pol.k * (mass * 9.80665) ^ 2 / (q * ac.area) →
      Fuel.enroute (ovf Ω) (Rec.fuel fin f) (Rec.airframe fin ac) (Rec.polar fin pol) false
        (fin mass) (fin tas) (fin alt) (fin 0) (fin acc) (fin dT) limit = nan) ∧
    (Single Ω →
      3.2 * (f.number * f.maxThrust) ≤ pol.k * (mass * 9.80665) ^ 2 / (q * ac.area) →
      Fuel.enroute (ovf Ω) (Rec.fuel fin f) (Rec.airframe fin ac) (Rec.polar fin pol) false
        (fin mass) (fin tas) (fin alt) (fin 0) (fin acc) (fin dT) limit = nan) := by
  have hs := slow_thrust ac pol mass tas alt acc dT q hA h.hCd0.1 h.hK.1 hm ha hacc hq hq'
  constructor
  · intro o hT
    have hΩ := o.big
    obtain ⟨-, -, e, hb⟩ := C128_enroute hΩ f ac pol mass tas alt 0 acc dT limit h
    rw [e]
    exact (C128_double o f hf _ hb).2 (hT.trans hs)
  · intro o hT
    have hΩ := o.big
    obtain ⟨-, -, e, hb⟩ := C128_enroute hΩ f ac pol mass tas alt 0 acc dT limit h
    rw [e]
    exact (C128_single o f hf _ hb).2 (hT.trans hs)

/-- Table-level form of the ranges and of the inequality at 5 kt and 12 kt. -/
def slowOk (p : FuelParts) : Bool :=
  let e := 10 ^ 16
  decide (1000 * e ≤ p.eng.maxThrust.getD 0) && decide (p.eng.maxThrust.getD 0 ≤ 1000000 * e) &&
  decide (e ≤ p.ac.number) && decide (p.ac.number ≤ 10 * e) &&
  decide (e ≤ 2 * p.model.1.c1) && decide (p.model.1.c1 ≤ 4 * e) &&
  decide (e ≤ 2 * p.model.1.c2) && decide (p.model.1.c2 ≤ 3 * e) &&
  decide (e ≤ 10 * p.model.1.c3) && decide (2 * p.model.1.c3 ≤ 7 * e) &&
  (match p.model.2 with
    | none => true
    | some (n, none) => decide (e ≤ 1000 * n) && decide (n ≤ 1000 * e)
    | some (n, some d) => decide (0 < d) && decide (d ≤ 1000 * n) && decide (n ≤ 1000 * d)) &&
  decide (e ≤ p.ac.area) && decide (p.ac.area ≤ 10000 * e) && decide (p.drag.2.cd0 ≤ 10 * e) &&
  decide (p.drag.2.k ≤ 10 * e) &&
  decide (75 * (p.ac.number * p.eng.maxThrust.getD 0 * p.ac.area) ≤
    96 * (p.drag.2.k * p.ac.oew * p.ac.oew))

/-- Table-level form of the bounds of the required thrust at 170 Pa and more at any path angle, and at
101 Pa and more in level flight at low speed. -/
def flyOk (p : FuelParts) : Bool :=
  let c := p.drag.2.cd0 * p.ac.area * p.ac.area
  let i := 97 * (p.drag.2.k * p.ac.mtow * p.ac.mtow)
  let t := p.ac.number * p.eng.maxThrust.getD 0 * p.ac.area
  decide (i + 170 * (70000 * c + 10 * (p.ac.mtow * p.ac.area * 10 ^ 16)) ≤ 2414 * t) &&
  decide (10 * i + 2020000 * c ≤ 14342 * t) && decide (p.ac.mtow ≤ 1000000 * 10 ^ 16)

theorem slowOk_shipped : (availableAircraft shipped true).all (fun ac =>
    match fuel shipped ac none (some true) false with
    | .ok p => slowOk p && flyOk p
    | .error _ => false) = true := by
  decide +kernel

theorem real_mul_le {a b c d : ℕ} (h : a * b ≤ c * d) : (a : ℝ) * real b ≤ c * real d := by
  have : (a : ℝ) * b ≤ c * d := by exact_mod_cast h
  unfold real
  rw [← mul_div_assoc, ← mul_div_assoc]
  exact div_le_div_of_nonneg_right this (by positivity)

theorem real_ge {a b c : ℕ} (h : a * 10 ^ 16 ≤ b * c) : (a : ℝ) ≤ b * real c := by
  have := real_mul_le h
  have e : real (10 ^ 16) = 1 := by unfold real; norm_num
  rwa [e, mul_one] at this

theorem real_le' {a b c : ℕ} (h : a * b ≤ c * 10 ^ 16) : (a : ℝ) * real b ≤ c := by
  have := real_mul_le h
  have e : real (10 ^ 16) = 1 := by unfold real; norm_num
  rwa [e, mul_one] at this

/-- What the shipped data say about slow flight. -/
theorem slow_shipped : ∀ ac ∈ availableAircraft shipped true, ∃ (p : FuelParts) (f : Fuel.Params ℝ),
    fuel shipped ac none (some true) false = .ok p ∧ fuelParams p = Defined.liftFuel f ∧
    FuelRange f.scale f.c1 f.c2 f.c3 f.maxThrust f.number ∧ 0 < f.number * f.maxThrust ∧
    0 < (airframe p.ac).area ∧ 1 ≤ (airframe p.ac).area ∧
    ∀ mass tas alt acc, real p.ac.oew ≤ mass → mass ≤ 10000000 → 0 ≤ alt →
      alt ≤ 1000000 → 0 ≤ acc → acc ≤ 10000 → 0 ≤ mass ∧
      (|tas| ≤ 10000 → Moderate (airframe p.ac).area (polarParams p.drag.2).cd0
        (polarParams p.drag.2).k mass tas alt 0 acc) ∧
      75 * (f.number * f.maxThrust) * (airframe p.ac).area ≤
        (polarParams p.drag.2).k * (mass * 9.80665) ^ 2 := by
  intro ac hac
  have hck := List.all_eq_true.1 slowOk_shipped ac hac
  obtain ⟨p, h1, -, -, -, -, -, ⟨f, hf, fs, f1, f2, f3, fm, fn⟩, hA, -, -, -, -, hc0, hk, -⟩ :=
    C37_every_aircraft_constructs ac hac
  simp only [h1, slowOk, Bool.and_eq_true, decide_eq_true_eq] at hck
  obtain ⟨⟨⟨⟨⟨⟨⟨⟨⟨⟨⟨⟨⟨⟨⟨⟨c1, c2⟩, c3⟩, c4⟩, c5⟩, c6⟩, c7⟩, c8⟩, c9⟩, c10⟩, c11⟩, c12⟩, c13⟩, c14⟩, c15⟩, c16⟩, -⟩ := hck
  obtain ⟨mt, hmt⟩ : ∃ n, p.eng.maxThrust = some n := by
    cases h : p.eng.maxThrust with
    | none => rw [h] at c1; simp at c1
    | some n => exact ⟨n, rfl⟩
  rw [hmt, Option.getD_some] at c1 c2 c16
  have ef : f = ⟨scale p.model.2, real p.model.1.c1, real p.model.1.c2, real p.model.1.c3, real mt,
      real p.ac.number⟩ := by
    rcases f with ⟨a1, a2, a3, a4, a5, a6⟩
    simp only [fuelParams, hmt, cell, Defined.liftFuel, Fuel.Params.mk.injEq, NR.val.injEq] at hf
    obtain ⟨b1, b2, b3, b4, b5, b6⟩ := hf
    rw [b1, b2, b3, b4, b5, b6]
  have hfr : FuelRange f.scale f.c1 f.c2 f.c3 f.maxThrust f.number := by
    rw [ef]
    dsimp only
    have d1 := real_ge (a := 1000) (b := 1) (by simpa using c1)
    have d2 := real_le' (a := 1) (c := 1000000) (by simpa using c2)
    have d3 := real_ge (a := 1) (b := 1) (by simpa using c3)
    have d4 := real_le' (a := 1) (c := 10) (by simpa using c4)
    have d5 := real_ge (a := 1) (b := 2) (by simpa using c5)
    have d6 := real_le' (a := 1) (c := 4) (by simpa using c6)
    have d7 := real_ge (a := 1) (b := 2) (by simpa using c7)
    have d8 := real_le' (a := 1) (c := 3) (by simpa using c8)
    have d9 := real_ge (a := 1) (b := 10) (by simpa using c9)
    have d10 := real_le' (a := 2) (c := 7) (by simpa using c10)
    push_cast at d1 d2 d3 d4 d5 d6 d7 d8 d9 d10
    refine ⟨?_, ⟨by linarith, by linarith⟩, ⟨by linarith, by linarith⟩, ⟨by linarith, by linarith⟩,
      ⟨by linarith, by linarith⟩, ⟨by linarith, by linarith⟩⟩
    rcases h : p.model.2 with _ | ⟨n, _ | d⟩
    · simp only [scale]; norm_num
    · simp only [h, Bool.and_eq_true, decide_eq_true_eq] at c11
      have k1 := real_ge (a := 1) (b := 1000) (by simpa using c11.1)
      have k2 := real_le' (a := 1) (c := 1000) (by simpa using c11.2)
      push_cast at k1 k2
      simp only [scale]
      exact ⟨by linarith, by linarith⟩
    · simp only [h, Bool.and_eq_true, decide_eq_true_eq] at c11
      obtain ⟨⟨k0, k1⟩, k2⟩ := c11
      have k0' := real_pos k0
      have k1' := real_mul_le (a := 1) (c := 1000) (by simpa using k1)
      have k2' := real_mul_le (a := 1) (c := 1000) (by simpa using k2)
      push_cast at k1' k2'
      simp only [scale]
      constructor
      · rw [le_div_iff₀ k0']; linarith
      · rw [div_le_iff₀ k0']; linarith
  refine ⟨p, f, h1, hf, hfr, mul_pos fn fm, ?_⟩
  have d12 := real_ge (a := 1) (b := 1) (by simpa using c12)
  have d13 := real_le' (a := 1) (c := 10000) (by simpa using c13)
  have d14 := real_le' (a := 1) (c := 10) (by simpa using c14)
  have d15 := real_le' (a := 1) (c := 10) (by simpa using c15)
  push_cast at d12 d13 d14 d15
  refine ⟨hA, by simp only [airframe]; linarith, ?_⟩
  intro mass tas alt acc m1 m2 a1 a2 g1 g2
  have o0 := real_nonneg p.ac.oew
  refine ⟨o0.trans m1, fun ht => ⟨⟨hA.le, by simp only [airframe]; linarith⟩, ⟨hc0.le, by simp only [polarParams]; linarith⟩,
      ⟨hk.le, by simp only [polarParams]; linarith⟩, by rw [abs_of_nonneg (by linarith)]; exact m2, ht,
      by rw [abs_of_nonneg a1]; exact a2, by simp, by rw [abs_of_nonneg g1]; exact g2⟩, ?_⟩
  have key : 75 * (f.number * f.maxThrust) * (airframe p.ac).area ≤
      (polarParams p.drag.2).k * (mass * 9.80665) ^ 2 := by
    rw [ef]
    simp only [airframe, polarParams]
    have c16' : (75 : ℝ) * (p.ac.number * mt * p.ac.area) ≤
        96 * (p.drag.2.k * p.ac.oew * p.ac.oew) := by exact_mod_cast c16
    have e1 : 75 * (real p.ac.number * real mt) * real p.ac.area ≤
        96 * real p.drag.2.k * real p.ac.oew ^ 2 := by
      unfold real
      calc 75 * ((p.ac.number : ℝ) / 10 ^ 16 * (mt / 10 ^ 16)) * ((p.ac.area : ℝ) / 10 ^ 16)
          = 75 * (p.ac.number * mt * p.ac.area) / 10 ^ 48 := by ring
        _ ≤ 96 * ((p.drag.2.k : ℝ) * p.ac.oew * p.ac.oew) / 10 ^ 48 := by gcongr
        _ = _ := by ring
    have e2 : real p.ac.oew ^ 2 ≤ mass ^ 2 := pow_le_pow_left₀ o0 m1 2
    have e3 : 0 ≤ real p.drag.2.k := real_nonneg _
    calc _ ≤ 96 * real p.drag.2.k * real p.ac.oew ^ 2 := e1
      _ ≤ 96 * real p.drag.2.k * mass ^ 2 := by gcongr
      _ ≤ real p.drag.2.k * (mass * 9.80665) ^ 2 := by
        have := mul_nonneg e3 (sq_nonneg mass)
        nlinarith
  exact key

/-- **C128 (shipped aircraft).** For every type code offered by
`available_aircraft(use_synonym=True)` and its default engine, in level flight at any altitude from
sea level up and any mass from the operating empty mass up, the fuel flow is NaN at 5 kt or less in
double precision and at 12 kt or less in single precision. -/
theorem C128_shipped : ∀ ac ∈ availableAircraft shipped true, ∃ (p : FuelParts) (f : Fuel.Params ℝ),
    fuel shipped ac none (some true) false = .ok p ∧ fuelParams p = Defined.liftFuel f ∧
    ∀ mass tas alt acc dT limit Ω, real p.ac.oew ≤ mass → mass ≤ 10000000 → 0 ≤ alt →
      alt ≤ 1000000 → 0 ≤ acc → acc ≤ 10000 →
      (Double Ω ∧ |tas| ≤ 5) ∨ (Single Ω ∧ |tas| ≤ 12) →
      Fuel.enroute (ovf Ω) (Rec.fuel fin f) (Rec.airframe fin (airframe p.ac))
        (Rec.polar fin (polarParams p.drag.2)) false (fin mass) (fin tas) (fin alt) (fin 0) (fin acc)
        (fin dT) limit = nan := by
  intro ac hac
  obtain ⟨p, f, h1, hf, hfr, hnm, hA, hA1, H⟩ := slow_shipped ac hac
  refine ⟨p, f, h1, hf, ?_⟩
  intro mass tas alt acc dT limit Ω m1 m2 a1 a2 g1 g2 hcase
  obtain ⟨m0, hmod, key⟩ := H mass tas alt acc m1 m2 a1 a2 g1 g2
  have tsq : ∀ c, |tas| ≤ c → tas ^ 2 ≤ c ^ 2 := fun c h => by
    rw [← sq_abs]; exact pow_le_pow_left₀ (abs_nonneg _) h 2
  rcases hcase with ⟨o, ht⟩ | ⟨o, ht⟩
  · have t2 := tsq 5 ht
    refine (C128_slow f hfr _ _ mass tas alt acc dT 4.1 limit (hmod (by linarith)) hA1 m0 a1
      g1 (by nlinarith) (by norm_num)).1 o ?_
    rw [le_div_iff₀ (by linarith)]
    have := mul_pos hnm hA
    nlinarith
  · have t2 := tsq 12 ht
    refine (C128_slow f hfr _ _ mass tas alt acc dT 23.4 limit (hmod (by linarith)) hA1 m0 a1
      g1 (by nlinarith) (by norm_num)).2 o ?_
    rw [le_div_iff₀ (by linarith)]
    have := mul_pos hnm hA
    nlinarith

/-- An A320 at 15 kt with 78 t in double precision; the exact fuel flow is positive (C37). -/
example : Fuel.enroute (ovf (2 ^ 1024)) (Rec.fuel fin ⟨1, 1.045, 2.363, 1.238, 117877, 2⟩)
    (Rec.airframe fin ⟨124, 34, 25, none, 78000, false⟩) (Rec.polar fin ⟨0.018, 0.039, 0, 0, 0⟩) false
    (fin 78000) (fin 15) (fin 0) (fin 0) (fin 0) (fin 0) true = nan := by
  refine (C128_slow ⟨1, 1.045, 2.363, 1.238, 117877, 2⟩
    ⟨by norm_num, by norm_num, by norm_num, by norm_num, by norm_num, by norm_num⟩
    ⟨124, 34, 25, none, 78000, false⟩ ⟨0.018, 0.039, 0, 0, 0⟩ 78000 15 0 0 0 36.5 true
    ⟨by norm_num, by norm_num, by norm_num, by norm_num, by norm_num, by norm_num, by norm_num,
      by norm_num⟩ (by norm_num) (by norm_num) (by norm_num) (by norm_num) (by norm_num)
    (by norm_num)).1 double_top (by norm_num)

/-- Ten times the maximum thrust: exact in double precision, NaN in single precision. -/
example : Fuel.atThrust (ovf (2 ^ 1024)) (Rec.fuel fin ⟨1, 1.045, 2.363, 1.238, 100000, 2⟩)
      (fin 2000000) = fin (Fuel.atThrust np ⟨1, 1.045, 2.363, 1.238, 100000, 2⟩ 2000000) ∧
    Fuel.atThrust (ovf (2 ^ 128)) (Rec.fuel fin ⟨1, 1.045, 2.363, 1.238, 100000, 2⟩)
      (fin 2000000) = nan := by
  have hf : FuelRange 1 1.045 2.363 1.238 100000 2 :=
    ⟨by norm_num, by norm_num, by norm_num, by norm_num, by norm_num, by norm_num⟩
  exact ⟨(C128_double double_top
      ⟨1, 1.045, 2.363, 1.238, 100000, 2⟩ hf 2000000 (by norm_num)).1 (by norm_num),
    (C128_single single_top
      ⟨1, 1.045, 2.363, 1.238, 100000, 2⟩ hf 2000000 (by norm_num)).2 (by norm_num)⟩

end Verif.Props
