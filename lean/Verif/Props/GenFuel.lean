import Verif.Lemmas.GenRows
import Verif.Lemmas.Feasible
import Verif.Props.Overflow

/-!
# C145: the fuel flow along a generated flight

`FlightGenerator.complete` (openap/gen.py:493-560) starts and may end on the runway, where the ground
speed passes through zero.  `FuelFlow.enroute` (openap/fuel.py:161-200) divides by the dynamic pressure
through the lift coefficient, so the required thrust of those rows is far outside the range of its fuel
model, whose exponential overflows (C128).
-/

namespace Verif.Props
open Verif Verif.Spec Verif.Aero Verif.Data Verif.Registry Verif.Tables Verif.Construct Real
open Verif.Gen (FlightGen Kw OutRow Rng CompleteReturns complete_rowBounds rowBounds_columns
  init_schedule RowBounds)
open Verif.XR (fin nan)

/-! ## Required thrust -/

/-- Required thrust between two dynamic pressures. -/
theorem thrust_le (ac : Drag.Airframe ℝ) (pol : Drag.Polar ℝ) (mass tas alt vs dT lo hi s : ℝ)
    (hA : 1 ≤ ac.area) (h0 : 0 ≤ pol.cd0) (hk : 0 ≤ pol.k) (hm : 0 ≤ mass) (hlo : 1 ≤ lo)
    (h1 : lo ≤ 0.5 * density np (alt * 0.3048) dT * (tas * 0.514444) ^ 2)
    (h2 : 0.5 * density np (alt * 0.3048) dT * (tas * 0.514444) ^ 2 ≤ hi)
    (hs : sin (atan2R (vs * 0.00508) (tas * 0.514444)) ≤ s) :
    Fuel.enrouteThrust np ac pol false mass tas alt vs 0 dT ≤
      pol.k * (mass * 9.80665) ^ 2 / (lo * ac.area) + pol.cd0 * (hi * ac.area) + mass * 9.81 * s := by
  have hr : Fuel.enrouteThrust np ac pol false mass tas alt vs 0 dT =
      Drag.clean np ac pol false mass tas alt vs dT +
        mass * 9.81 * sin (atan2R (vs * 0.00508) (tas * 0.514444)) + mass * 0 := rfl
  have hc : Drag.clean np ac pol false mass tas alt vs dT = pol.cd0 * Drag.qS ac tas alt dT +
      pol.k * Drag.lift mass tas vs ^ 2 / Drag.qS ac tas alt dT := by
    have : Drag.clean np ac pol false mass tas alt vs dT =
      Drag.calcDrag np ac mass tas alt (pol.cd0 + 0.0) pol.k vs dT := rfl
    rw [this, Drag.calcDrag_eq]
    norm_num
  have q1 : lo * ac.area ≤ Drag.qS ac tas alt dT := by
    unfold Drag.qS
    exact (mul_le_mul_of_nonneg_right h1 (by linarith)).trans (le_max_left _ _)
  have q2 : Drag.qS ac tas alt dT ≤ hi * ac.area := by
    unfold Drag.qS
    refine max_le (mul_le_mul_of_nonneg_right h2 (by linarith)) ?_
    have : 1 * 1 ≤ hi * ac.area := mul_le_mul (by linarith) hA (by norm_num) (by linarith)
    norm_num at this ⊢
    linarith
  have q0 : 0 < lo * ac.area := by positivity
  rw [hr, hc]
  have k1 : pol.k * Drag.lift mass tas vs ^ 2 / Drag.qS ac tas alt dT ≤
      pol.k * (mass * 9.80665) ^ 2 / (lo * ac.area) :=
    div_le_div₀ (by positivity) (mul_le_mul_of_nonneg_left (Drag.lift_sq_le _ _ _) hk) q0 q1
  have k2 : pol.cd0 * Drag.qS ac tas alt dT ≤ pol.cd0 * (hi * ac.area) :=
    mul_le_mul_of_nonneg_left q2 h0
  have k3 : mass * 9.81 * sin (atan2R (vs * 0.00508) (tas * 0.514444)) ≤ mass * 9.81 * s :=
    mul_le_mul_of_nonneg_left hs (by positivity)
  linarith

/-- A lower bound of the density below 45000 ft. -/
theorem density_lower {alt : ℝ} (ha : alt ≤ 45000) : 0.15 ≤ density np (alt * 0.3048) 0 := by
  have h1 := (density_strictAnti 0).antitone (show alt * 0.3048 ≤ 13716 by linarith)
  refine le_trans ?_ h1
  show 0.15 ≤ density np 13716 0
  rw [Feasible.density_strat (by norm_num)]
  have e1 := add_one_le_exp (-(13716 - 11000 : ℝ) / 6341.552161)
  have e2 : (0.5:ℝ) ≤ exp (-(13716 - 11000) / 6341.552161) := le_trans (by norm_num) e1
  have e3 : (0.27:ℝ) ≤ (216.65 / 288.15) ^ (4.256848030018761 : ℝ) := by
    calc (0.27:ℝ) ≤ (216.65 / 288.15) ^ (4.5 : ℝ) := by
          have : ((216.65:ℝ) / 288.15) ^ (4.5 : ℝ) = ((216.65 / 288.15) ^ (9 : ℕ)) ^ (1 / 2 : ℝ) := by
            rw [← rpow_natCast, ← rpow_mul (by norm_num)]
            norm_num
          rw [this, ← sqrt_eq_rpow]
          exact le_sqrt_of_sq_le (by norm_num)
      _ ≤ _ := rpow_le_rpow_of_exponent_ge (by norm_num) (by norm_num) (by norm_num)
  generalize ((216.65:ℝ) / 288.15) ^ (4.256848030018761 : ℝ) = a at *
  generalize exp (-(13716 - 11000 : ℝ) / 6341.552161) = b at *
  nlinarith

/-- What the shipped data say about flight at 170 Pa and more, and on the runway. -/
theorem fly_shipped {ac : Str} (hac : ac ∈ availableAircraft shipped true) {p : FuelParts}
    (hp : fuel shipped ac none (some true) false = .ok p) {f : Fuel.Params ℝ}
    (hf : fuelParams p = Defined.liftFuel f) {mass : ℝ} (m0 : 0 ≤ mass)
    (m1 : mass ≤ real p.ac.mtow) :
    97 * ((polarParams p.drag.2).k * mass ^ 2) + 170 * (70000 * (polarParams p.drag.2).cd0 *
        (airframe p.ac).area + 10 * mass) * (airframe p.ac).area ≤
      2414 * (f.number * f.maxThrust) * (airframe p.ac).area ∧
    97 * ((polarParams p.drag.2).k * mass ^ 2) + 202000 * (polarParams p.drag.2).cd0 *
        (airframe p.ac).area * (airframe p.ac).area ≤
      1434.2 * (f.number * f.maxThrust) * (airframe p.ac).area ∧ mass ≤ 10000000 := by
  have hck := List.all_eq_true.1 slowOk_shipped ac hac
  rw [hp] at hck
  simp only [Bool.and_eq_true] at hck
  obtain ⟨hs, hck⟩ := hck
  have hmt : ∃ n, p.eng.maxThrust = some n := by
    cases h : p.eng.maxThrust with
    | none => simp [slowOk, h] at hs
    | some n => exact ⟨n, rfl⟩
  obtain ⟨mt, hmt⟩ := hmt
  simp only [flyOk, hmt, Option.getD_some, Bool.and_eq_true, decide_eq_true_eq] at hck
  obtain ⟨⟨c1, c2⟩, c3⟩ := hck
  have ef : f.maxThrust = real mt ∧ f.number = real p.ac.number := by
    rcases f with ⟨a1, a2, a3, a4, a5, a6⟩
    simp only [fuelParams, hmt, cell, Defined.liftFuel, Fuel.Params.mk.injEq, NR.val.injEq] at hf
    exact ⟨hf.2.2.2.2.1.symm, hf.2.2.2.2.2.symm⟩
  rw [ef.1, ef.2]
  simp only [airframe, polarParams]
  have k0 := real_nonneg p.drag.2.k
  have a0 := real_nonneg p.ac.area
  have sq : mass ^ 2 ≤ real p.ac.mtow ^ 2 := pow_le_pow_left₀ m0 m1 2
  have b1 : real p.drag.2.k * mass ^ 2 ≤ real p.drag.2.k * real p.ac.mtow ^ 2 := by gcongr
  have b2 : mass * real p.ac.area ≤ real p.ac.mtow * real p.ac.area := by gcongr
  have c1' : ((97 * (p.drag.2.k * p.ac.mtow * p.ac.mtow) + 170 * (70000 * (p.drag.2.cd0 * p.ac.area *
      p.ac.area) + 10 * (p.ac.mtow * p.ac.area * 10 ^ 16)) : ℕ) : ℝ) ≤
      ((2414 * (p.ac.number * mt * p.ac.area) : ℕ) : ℝ) := by exact_mod_cast c1
  have c2' : ((10 * (97 * (p.drag.2.k * p.ac.mtow * p.ac.mtow)) + 2020000 * (p.drag.2.cd0 * p.ac.area *
      p.ac.area) : ℕ) : ℝ) ≤ ((14342 * (p.ac.number * mt * p.ac.area) : ℕ) : ℝ) := by
    exact_mod_cast c2
  push_cast at c1' c2'
  refine ⟨?_, ?_, ?_⟩
  · have e : 97 * (real p.drag.2.k * real p.ac.mtow ^ 2) + 170 * (70000 * (real p.drag.2.cd0 *
        real p.ac.area * real p.ac.area) + 10 * (real p.ac.mtow * real p.ac.area)) ≤
        2414 * (real p.ac.number * real mt * real p.ac.area) := by
      unfold real
      have := div_le_div_of_nonneg_right c1' (show (0:ℝ) ≤ 10 ^ 48 by positivity)
      refine le_trans (le_of_eq ?_) (this.trans (le_of_eq ?_)) <;> ring
    linarith
  · have e : 97 * (real p.drag.2.k * real p.ac.mtow ^ 2) + 202000 * (real p.drag.2.cd0 *
        real p.ac.area * real p.ac.area) ≤
        1434.2 * (real p.ac.number * real mt * real p.ac.area) := by
      unfold real
      have := div_le_div_of_nonneg_right c2' (show (0:ℝ) ≤ 10 * 10 ^ 48 by positivity)
      refine le_trans (le_of_eq ?_) (this.trans (le_of_eq ?_)) <;> ring
    linarith
  · have := real_le' (a := 1) (b := p.ac.mtow) (c := 1000000) (by omega)
    norm_num at this
    linarith

/-- Required thrust of an offered type: less than 14.2 times the maximum thrust at 117 kt and more
below 45000 ft, and on the runway at 25 kt and more. -/
theorem fly_thrust {ac : Str} (hac : ac ∈ availableAircraft shipped true) {p : FuelParts}
    (hp : fuel shipped ac none (some true) false = .ok p) {f : Fuel.Params ℝ}
    (hf : fuelParams p = Defined.liftFuel f) (hA : 1 ≤ (airframe p.ac).area)
    (hc0 : 0 ≤ (polarParams p.drag.2).cd0) (hk : 0 ≤ (polarParams p.drag.2).k)
    {mass tas alt vs : ℝ} (m0 : 0 ≤ mass) (m1 : mass ≤ real p.ac.mtow) (a0 : 0 ≤ alt)
    (a1 : alt ≤ 45000) (t1 : tas ≤ 600)
    (h : 117 ≤ tas ∨ (25 ≤ tas ∧ alt = 0 ∧ vs = 0)) :
    Fuel.enrouteThrust np (airframe p.ac) (polarParams p.drag.2) false mass tas alt vs 0 0 ≤
      14.2 * (f.number * f.maxThrust) := by
  obtain ⟨F1, F2, -⟩ := fly_shipped hac hp hf m0 m1
  have hA0 : 0 < (airframe p.ac).area := by linarith
  have hρ := density_le_sea (dT := 0) a0
  have hρ' := density_lower a1
  have g : ∀ lo : ℝ, 0 < lo → (polarParams p.drag.2).k * (mass * 9.80665) ^ 2 /
      (lo * (airframe p.ac).area) ≤
      97 * ((polarParams p.drag.2).k * mass ^ 2) / (lo * (airframe p.ac).area) := by
    intro lo hlo
    refine div_le_div_of_nonneg_right ?_ (by positivity)
    have : 0 ≤ (polarParams p.drag.2).k * mass ^ 2 := by positivity
    nlinarith
  by_cases h110 : 110 ≤ tas
  · have v1 : 110 * 0.514444 ≤ tas * 0.514444 := by linarith
    have v2 : tas * 0.514444 ≤ 600 * 0.514444 := by linarith
    have s1 : (110 * 0.514444 : ℝ) ^ 2 ≤ (tas * 0.514444) ^ 2 := pow_le_pow_left₀ (by norm_num) v1 2
    have s2 : (tas * 0.514444) ^ 2 ≤ (600 * 0.514444 : ℝ) ^ 2 := pow_le_pow_left₀ (by linarith) v2 2
    refine (thrust_le _ _ mass tas alt vs 0 170 70000 1 hA hc0 hk m0 (by norm_num) ?_ ?_
      (sin_le_one _)).trans ?_
    · rcases h with h | ⟨-, rfl, -⟩
      · calc (170:ℝ) ≤ 0.5 * 0.15 * (117 * 0.514444) ^ 2 := by norm_num
          _ ≤ _ := by gcongr
      · rw [zero_mul, density_sea]
        calc (170:ℝ) ≤ 0.5 * 1.225 * (110 * 0.514444) ^ 2 := by norm_num
          _ ≤ _ := by gcongr
    · calc 0.5 * density np (alt * 0.3048) 0 * (tas * 0.514444) ^ 2
          ≤ 0.5 * 1.225 * (600 * 0.514444) ^ 2 := by gcongr
        _ ≤ 70000 := by norm_num
    · have e := g 170 (by norm_num)
      have : 97 * ((polarParams p.drag.2).k * mass ^ 2) / (170 * (airframe p.ac).area) ≤
          14.2 * (f.number * f.maxThrust) - (polarParams p.drag.2).cd0 *
            (70000 * (airframe p.ac).area) - 10 * mass := by
        rw [div_le_iff₀ (by positivity)]
        nlinarith
      linarith
  · obtain ⟨t2, rfl, rfl⟩ := h.resolve_left (by linarith)
    have v1 : 25 * 0.514444 ≤ tas * 0.514444 := by linarith
    have v2 : tas * 0.514444 ≤ 110 * 0.514444 := by linarith
    have s1 : (25 * 0.514444 : ℝ) ^ 2 ≤ (tas * 0.514444) ^ 2 := pow_le_pow_left₀ (by norm_num) v1 2
    have s2 : (tas * 0.514444) ^ 2 ≤ (110 * 0.514444 : ℝ) ^ 2 := pow_le_pow_left₀ (by linarith) v2 2
    have e0 : density np (0 * 0.3048) 0 = 1.225 := by rw [zero_mul]; exact density_sea 0
    refine (thrust_le _ _ mass tas 0 0 0 101 2000 0 hA hc0 hk m0 (by norm_num) ?_ ?_
      (sin_level _).le).trans ?_
    · rw [e0]; norm_num at s1 ⊢; linarith
    · rw [e0]; norm_num at s2 ⊢; linarith
    · have e := g 101 (by norm_num)
      have : 97 * ((polarParams p.drag.2).k * mass ^ 2) / (101 * (airframe p.ac).area) ≤
          14.2 * (f.number * f.maxThrust) - (polarParams p.drag.2).cd0 *
            (2000 * (airframe p.ac).area) := by
        rw [div_le_iff₀ (by positivity)]
        nlinarith
      linarith

/-! ## Generated flights -/

/-- The fuel flow that `FuelFlow.enroute` computes from the columns of a row. -/
noncomputable def rowFuel (Ω : ℝ) (f : Fuel.Params ℝ) (p : FuelParts) (mass : ℝ) (x : OutRow) :
    XR Ω :=
  Fuel.enroute (ovf Ω) (Rec.fuel fin f) (Rec.airframe fin (airframe p.ac))
    (Rec.polar fin (polarParams p.drag.2)) false (fin mass) (fin x.groundspeed) (fin x.altitude)
    (fin x.verticalRate) (fin 0) (fin 0) false

theorem nan_add {Ω : ℝ} (x : XR Ω) : (nan : XR Ω) + x = nan := rfl
theorem add_nan {Ω : ℝ} (x : XR Ω) : x + nan = (nan : XR Ω) := by cases x <;> rfl

theorem foldl_nan {Ω : ℝ} : ∀ l : List (XR Ω), l.foldl (· + ·) nan = nan
  | [] => rfl
  | x :: l => by rw [List.foldl_cons, nan_add]; exact foldl_nan l

/-- **C145.** The columns of a generated complete flight fed to `FuelFlow.enroute`, for every offered
type and every mass between the empty and the maximum take-off mass: NaN on the rows at 5 kt and less,
of which the first row is one, hence NaN for the sum over the flight; the exact value on every row at
25 kt and more, of which every row off the runway is one. -/
theorem C145_rows {G : Type} {R : Rng G} {ac : Str} (hac : ac ∈ availableAircraft shipped true)
    (seed : G) :
    ∃ fg p f, Gen.init shipped ac seed true = .ok fg ∧
      fuel shipped ac none (some true) false = .ok p ∧ fuelParams p = Defined.liftFuel f ∧
      ∀ (g : G) (kw : Kw), kw.Default →
        ∀ rows f', CompleteReturns R { fg with rng := g } kw rows f' →
        (∀ x ∈ rows, 0 ≤ x.altitude ∧ x.altitude ≤ 43400 ∧ 0 ≤ x.groundspeed ∧
          x.groundspeed ≤ 600 ∧
          ((x.altitude = 0 ∧ x.verticalRate = 0) ∨ 117 ≤ x.groundspeed)) ∧
        (∃ x, rows.head? = some x ∧ x.groundspeed = 0) ∧
        ∀ mass Ω, real p.ac.oew ≤ mass → mass ≤ real p.ac.mtow → Double Ω →
          (∀ x ∈ rows, x.groundspeed ≤ 5 → rowFuel Ω f p mass x = nan) ∧
          (∀ x ∈ rows, 25 ≤ x.groundspeed → rowFuel Ω f p mass x =
            fin (Fuel.enroute np f (airframe p.ac) (polarParams p.drag.2) false mass x.groundspeed
              x.altitude x.verticalRate 0 0 false)) ∧
          (rows.map (rowFuel Ω f p mass)).foldl (· + ·) (fin 0) = nan := by
  obtain ⟨p, f, h1, hf, hfr, hnm, hA, hA1, H⟩ := slow_shipped ac hac
  obtain ⟨p', f0, h1', hf', hslow⟩ := C128_shipped ac hac
  rw [h1] at h1'
  cases h1'
  obtain rfl : f = f0 := by
    rw [hf] at hf'
    rcases f with ⟨a1, a2, a3, a4, a5, a6⟩
    rcases f0 with ⟨b1, b2, b3, b4, b5, b6⟩
    simpa [Defined.liftFuel] using hf'
  obtain ⟨fg, a, i1, -, i3, i4, -, i6⟩ := init_schedule hac seed
  refine ⟨fg, p, f, i1, h1, hf, ?_⟩
  intro g kw hk rows f' hret
  obtain ⟨⟨x0, hx0, z1, z2, z3⟩, hb⟩ := complete_rowBounds (f := { fg with rng := g }) i3 i4 i6 hk hret
  have col : ∀ x ∈ rows, 0 ≤ x.altitude ∧ x.altitude ≤ 43400 ∧ 0 ≤ x.groundspeed ∧
      x.groundspeed ≤ 600 ∧ |(x.verticalRate : ℝ)| ≤ 5000 ∧
      ((x.altitude = 0 ∧ x.verticalRate = 0) ∨ 117 ≤ x.groundspeed) := by
    intro x hx
    obtain ⟨b, y, rfl⟩ := hb x hx
    exact rowBounds_columns b
  refine ⟨fun x hx => ?_, ⟨x0, hx0, z2⟩, ?_⟩
  · obtain ⟨c1, c2, c3, c4, -, c6⟩ := col x hx
    exact ⟨c1, c2, c3, c4, c6⟩
  intro mass Ω m1 m2 hΩ
  have m0 : 0 ≤ mass := (real_nonneg _).trans m1
  have mM : mass ≤ 10000000 := (fly_shipped hac h1 hf m0 m2).2.2
  have slow : ∀ x ∈ rows, x.groundspeed ≤ 5 → rowFuel Ω f p mass x = nan := by
    intro x hx h5
    obtain ⟨c1, c2, c3, c4, c5, c6⟩ := col x hx
    obtain ⟨e1, e2⟩ : x.altitude = 0 ∧ x.verticalRate = 0 := c6.resolve_right (by omega)
    unfold rowFuel
    rw [e1, e2, Int.cast_zero]
    refine hslow mass x.groundspeed 0 0 0 false Ω m1 mM le_rfl (by norm_num) le_rfl (by norm_num)
      (Or.inl ⟨hΩ, ?_⟩)
    rw [abs_of_nonneg (by exact_mod_cast c3)]
    exact_mod_cast h5
  refine ⟨slow, ?_, ?_⟩
  · intro x hx h25
    obtain ⟨c1, c2, c3, c4, c5, c6⟩ := col x hx
    have a0 : (0:ℝ) ≤ x.altitude := by exact_mod_cast c1
    have a1 : (x.altitude : ℝ) ≤ 43400 := by exact_mod_cast c2
    have s0 : (25:ℝ) ≤ x.groundspeed := by exact_mod_cast h25
    have s1 : (x.groundspeed : ℝ) ≤ 600 := by exact_mod_cast c4
    obtain ⟨m0, hmod, -⟩ := H mass x.groundspeed x.altitude 0 m1 mM a0 (by linarith) le_rfl (by norm_num)
    have hmod := hmod (by rw [abs_of_nonneg (by linarith)]; linarith)
    have hM : Moderate (airframe p.ac).area (polarParams p.drag.2).cd0 (polarParams p.drag.2).k
        mass x.groundspeed x.altitude x.verticalRate 0 :=
      { hmod with hVs := c5.trans (by norm_num) }
    obtain ⟨-, -, e, hb⟩ := C128_enroute hΩ.big f (airframe p.ac) (polarParams p.drag.2) mass
      x.groundspeed x.altitude x.verticalRate 0 0 false hM
    unfold rowFuel
    rw [e]
    refine (C128_double hΩ f hfr _ hb).1 ?_
    refine fly_thrust hac h1 hf hA1 hmod.hCd0.1 hmod.hK.1 m0 m2 a0 (by linarith) s1 ?_
    rcases c6 with ⟨e1, e2⟩ | c
    · exact Or.inr ⟨s0, by rw [e1, Int.cast_zero], by rw [e2, Int.cast_zero]⟩
    · exact Or.inl (by exact_mod_cast c)
  · cases rows with
    | nil => cases hx0
    | cons y l =>
      obtain rfl : y = x0 := by simpa using hx0
      rw [List.map_cons, List.foldl_cons, slow y (by simp) (by omega), add_nan]
      exact foldl_nan _

/-- The default flight of the A320 returns, and its fuel column sums to NaN at 60 tonnes. -/
example {G : Type} {R : Rng G} (hR : R.Unit) (seed : G) :
    ∃ fg p f rows f', Gen.init shipped ("a320".toList.map Char.toNat) seed true = .ok fg ∧
      fuel shipped ("a320".toList.map Char.toNat) none (some true) false = .ok p ∧
      fuelParams p = Defined.liftFuel f ∧ CompleteReturns R fg { } rows f' ∧
      (rows.map (rowFuel (2 ^ 1023) f p 60000)).foldl (· + ·) (fin 0) = nan := by
  have hac : "a320".toList.map Char.toNat ∈ availableAircraft shipped true := by decide +kernel
  obtain ⟨fg, p, f, h1, h2, h3, h⟩ := C145_rows (R := R) hac seed
  obtain ⟨fg', h1', h4⟩ := C55_complete_arguments (R := R) _ hac seed hR
  obtain rfl : fg = fg' := by rw [h1] at h1'; simpa using h1'
  obtain ⟨rows, f', hr⟩ := (h4 fg (.inl rfl) fg.rng { }
    ⟨by simp, by simp, by simp, by simp, by simp, by simp⟩).1.2 ⟨rfl, rfl⟩
  refine ⟨fg, p, f, rows, f', h1, h2, h3, hr, ?_⟩
  have e : (match fuel shipped ("a320".toList.map Char.toNat) none (some true) false with
      | .ok p => decide (p.ac.oew ≤ 60000 * 10 ^ 16 ∧ 60000 * 10 ^ 16 ≤ p.ac.mtow)
      | .error _ => false) = true := by decide +kernel
  rw [h2] at e
  obtain ⟨e1, e2⟩ := of_decide_eq_true e
  have e1 := real_le' (a := 1) (b := p.ac.oew) (c := 60000) (by omega)
  have e2 := real_ge (a := 60000) (b := 1) (c := p.ac.mtow) (by omega)
  norm_num at e1 e2
  exact ((h fg.rng { } ⟨by simp, rfl, rfl, rfl, rfl, rfl, rfl, by simp⟩ rows f' hr).2.2 60000
    (2 ^ 1023) e1 e2 ⟨le_rfl, pow_le_pow_right₀ (by norm_num) (by norm_num)⟩).2.2

end Verif.Props
