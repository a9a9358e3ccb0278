import Verif.Lemmas.Fuel
import Verif.Model.FuelCall
import Verif.Props.Drag

/-!
# C28-C33: fuel flow
-/

namespace Verif.Props
open Verif.Fuel Real

/-- **C28.** Fuel flow is positive and below `n · scale · c1` for every thrust. -/
theorem C28_fuel_bounded (f : Params ℝ) (hs : 0 < f.scale) (h1 : 0 < f.c1) (h2 : 0 < f.c2)
    (hn : 0 < f.number) (T : ℝ) :
    0 < atThrust np f T ∧ atThrust np f T < f.number * f.scale * f.c1 := by
  simp only [atThrust]
  set x := limiter np (T / f.number / f.maxThrust)
  have hx : 0 < x := limiter_pos _
  rw [funcFuel_eq f h1 h2]
  have e1 := exp_pos (-(f.c2 * (x * exp (f.c3 * x))))
  have e2 : exp (-(f.c2 * (x * exp (f.c3 * x)))) < 1 := by
    rw [exp_lt_one_iff]
    have := exp_pos (f.c3 * x)
    have : 0 < f.c2 * (x * exp (f.c3 * x)) := by positivity
    linarith
  set E := exp (-(f.c2 * (x * exp (f.c3 * x))))
  have h0 : 0 < 1 - E := by linarith
  refine ⟨by positivity, ?_⟩
  have : f.scale * (f.c1 * (1 - E)) * f.number = f.number * f.scale * f.c1 * (1 - E) := by ring
  rw [this]
  have : 0 < f.number * f.scale * f.c1 := by positivity
  nlinarith

/-- Fuel model and engine numbers of the A318. -/
noncomputable def a318fuel : Params ℝ :=
  ⟨1, 0.7769784596099123, 1.765377288174942, 2.5349134936316693, 103600, 2⟩

theorem a318fuel_ok : Fuel.Ok a318fuel :=
  ⟨by norm_num [a318fuel], by norm_num [a318fuel], by norm_num [a318fuel],
    by norm_num [a318fuel], by norm_num [a318fuel], by norm_num [a318fuel]⟩

example : 0 < atThrust np a318fuel (-50000) ∧ atThrust np a318fuel 1e9 < 1.6 := by
  have h := C28_fuel_bounded a318fuel a318fuel_ok.scale a318fuel_ok.c1 a318fuel_ok.c2
    a318fuel_ok.num
  refine ⟨(h _).1, (h 1e9).2.trans (by norm_num [a318fuel])⟩

/-- **C29.** More thrust burns strictly more fuel, from `-10.5` times the maximum thrust
upwards. -/
theorem C29_fuel_increasing (f : Params ℝ) (hs : 0 < f.scale) (h1 : 0 < f.c1) (h2 : 0 < f.c2)
    (h3 : 0 ≤ f.c3) (hm : 0 < f.maxThrust) (hn : 0 < f.number) (T1 T2 : ℝ)
    (hT : -10.5 * (f.number * f.maxThrust) ≤ T1) (h12 : T1 < T2) :
    atThrust np f T1 < atThrust np f T2 :=
  atThrust_strictMono f ⟨hs, h1, h2, h3, hm, hn⟩ hT h12

example : atThrust np a318fuel 0 < atThrust np a318fuel 40000 :=
  C29_fuel_increasing a318fuel a318fuel_ok.scale a318fuel_ok.c1 a318fuel_ok.c2 a318fuel_ok.c3
    a318fuel_ok.max a318fuel_ok.num _ _ (by norm_num [a318fuel]) (by norm_num)

/-- **C30.** The limited thrust ratio is at least 0.03 exactly from -10.5 upwards, is
always positive, strictly increasing from there, and follows the raw ratio to within
0.0001 on `[0.15, 1]`; it has no upper bound, in particular exceeds 1 at ratio 2. -/
theorem C30_limiter :
    (∀ r, -10.5 ≤ r ↔ 0.03 ≤ limiter np r) ∧
    (∀ r, 0 < limiter np r) ∧
    (∀ r s, -10.5 ≤ r → r < s → limiter np r < limiter np s) ∧
    (∀ r, 0.15 ≤ r → r ≤ 1 → |limiter np r - r| ≤ 0.0001) ∧
    (∀ M, ∃ r, M < limiter np r) ∧
    1 < limiter np 2 := by
  have hlow : ∀ r, 1.2 ≤ r → (5 * r + 51) / 50.00001 + 0.03 ≤ limiter np r := by
    intro r hr
    rw [limiter_eq]
    have h1 := sp_gt (50 * (r - 0.03))
    have h2 := sp_le_add (45 * (r - 1.2))
    have h3 : exp (-(45 * (r - 1.2))) ≤ 1 := exp_le_one_iff.2 (by norm_num at hr ⊢; linarith)
    have h4 := sp50_le
    have h5 := sp50
    have h6 : 5 * r + 51 ≤ sp (50 * (r - 0.03)) - sp (45 * (r - 1.2)) := by
      linarith
    have h7 : (5 * r + 51) / 50.00001 ≤
        (sp (50 * (r - 0.03)) - sp (45 * (r - 1.2))) / sp 50 := by
      have p : 0 ≤ 5 * r + 51 := by norm_num at hr; linarith
      have p' : 0 < sp 50 := by linarith
      gcongr
      linarith
    linarith
  refine ⟨?_, limiter_pos, ?_, ?_, ?_, ?_⟩
  · intro r
    refine ⟨limiter_ge, fun h => ?_⟩
    by_contra hlt
    push Not at hlt
    exact absurd h (not_le.2 (limiter_lt hlt))
  · intro r s h1 h2
    exact limiter_strictMonoOn (Set.mem_Ici.2 h1) (Set.mem_Ici.2 (h1.trans h2.le)) h2
  · intro r h1 h2
    rw [limiter_eq]
    have a1 := sp_gt (50 * (r - 0.03))
    have a2 := sp_le_add (50 * (r - 0.03))
    have b1 := sp_pos (45 * (r - 1.2))
    have b2 := sp_le_exp (45 * (r - 1.2))
    have e27 := exp_one_gt_d9
    have e6 : exp (-6) ≤ 0.003 := by
      have : (2.7 : ℝ) ^ 6 ≤ exp 6 := by
        have e : exp 6 = exp 1 ^ 6 := by rw [← exp_nat_mul]; norm_num
        rw [e]; exact pow_le_pow_left₀ (by norm_num) (by linarith) 6
      rw [exp_neg, inv_le_comm₀ (exp_pos _) (by norm_num)]
      refine le_trans ?_ this
      norm_num
    have c1 : exp (-(50 * (r - 0.03))) ≤ exp (-6) := exp_le_exp.2 (by norm_num at h1 ⊢; linarith)
    have c2 : exp (45 * (r - 1.2)) ≤ exp (-6) := exp_le_exp.2 (by norm_num at h2 ⊢; linarith)
    have s1 := sp50
    have s2 := sp50_le
    have a2' := a2.trans (add_le_add_right (c1.trans e6) _)
    have b2' := b2.trans (c2.trans e6)
    clear a2 b2 c1 c2 e6 e27 hlow
    generalize sp (50 * (r - 0.03)) = A at *
    generalize sp (45 * (r - 1.2)) = B at *
    generalize sp 50 = s at *
    have hs : 0 < s := by linarith
    have e : (A - B) / s + 0.03 - r = (A - B - (r - 0.03) * s) / s := by field_simp; ring
    rw [e, abs_le]
    constructor
    · rw [le_div_iff₀ hs]; nlinarith
    · rw [div_le_iff₀ hs]; nlinarith
  · intro M
    refine ⟨max 1.2 (11 * M), ?_⟩
    have h := hlow (max 1.2 (11 * M)) (le_max_left _ _)
    have h1 := le_max_right 1.2 (11 * M)
    have h2 := le_max_left 1.2 (11 * M)
    refine lt_of_lt_of_le ?_ h
    have : M < (5 * max 1.2 (11 * M) + 51) / 50.00001 := by
      rw [lt_div_iff₀ (by norm_num)]
      rcases le_or_gt M 0 with hM | hM <;> nlinarith
    linarith
  · refine lt_of_lt_of_le ?_ (hlow 2 (by norm_num))
    norm_num

/-- **C31.** Enroute fuel flow grows with acceleration, with mass when not descending or
decelerating, and climbing costs at least as much as descending at the same rate. -/
theorem C31_enroute_signs (f : Params ℝ) (hf : Fuel.Ok f) (ac : Drag.Airframe ℝ)
    (pol : Drag.Polar ℝ) (h0 : 0 < pol.cd0) (hk : 0 < pol.k) (wave : Bool)
    (tas alt dT : ℝ) (limit : Bool) :
    (∀ mass vs a1 a2, 0 < mass → a1 < a2 →
      -10.5 * (f.number * f.maxThrust) ≤
        enrouteThrust np ac pol wave mass tas alt vs a1 dT →
      enroute np f ac pol wave mass tas alt vs a1 dT limit <
        enroute np f ac pol wave mass tas alt vs a2 dT limit) ∧
    (∀ m1 m2 vs acc, 0 < m1 → m1 < m2 → 0 ≤ vs → 0 ≤ acc →
      (wave = false ∨ 0 < tas ∧ -90 < ac.sweep ∧ ac.sweep < 90) →
      enroute np f ac pol wave m1 tas alt vs acc dT limit <
        enroute np f ac pol wave m2 tas alt vs acc dT limit) ∧
    (∀ mass vs acc, 0 < mass → 0 ≤ vs →
      -10.5 * (f.number * f.maxThrust) ≤
        enrouteThrust np ac pol wave mass tas alt (-vs) acc dT →
      enroute np f ac pol wave mass tas alt (-vs) acc dT limit ≤
        enroute np f ac pol wave mass tas alt vs acc dT limit) := by
  have hn := hf.num
  have hm := hf.max
  refine ⟨?_, ?_, ?_⟩
  · intro mass vs a1 a2 hmass h12 hT
    simp only [enroute]
    refine atThrust_strictMono f hf hT ?_
    rw [enrouteThrust_eq, enrouteThrust_eq]
    nlinarith
  · intro m1 m2 vs acc hm1 h12 hvs hacc hw
    simp only [enroute]
    have hsin := sin_atan2_nonneg (w := vs * 0.00508) (tas * 0.514444) (by positivity)
    have hD1 : 0 < Drag.clean np ac pol wave m1 tas alt vs dT :=
      (C24_drag_positive ac pol h0 hk m1 tas alt dT hm1).2.1 wave vs
    refine atThrust_strictMono f hf ?_ ?_
    · rw [enrouteThrust_eq]
      have : 0 < f.number * f.maxThrust := by positivity
      have : 0 ≤ m1 * 9.81 * sin (atan2R (vs * 0.00508) (tas * 0.514444)) := by positivity
      have : 0 ≤ m1 * acc := by positivity
      norm_num at *
      linarith
    · rw [enrouteThrust_eq, enrouteThrust_eq]
      have hC := C25_drag_mass ac pol hk tas alt dT
      have hacc' : m1 * acc ≤ m2 * acc := by nlinarith
      by_cases hdeg : tas ≠ 0 ∨ vs = 0
      · have hD : Drag.clean np ac pol wave m1 tas alt vs dT <
            Drag.clean np ac pol wave m2 tas alt vs dT := by
          rcases hw with rfl | ⟨ht, hs1, hs2⟩
          · exact hC.1 m1 m2 vs hm1.le h12 hdeg
          · cases wave
            · exact hC.1 m1 m2 vs hm1.le h12 hdeg
            · exact hC.2.1 m1 m2 vs hm1.le h12 (Or.inl ht) hs1 hs2
        nlinarith
      · push Not at hdeg
        obtain ⟨ht, hv⟩ := hdeg
        have hvpos : 0 < vs := lt_of_le_of_ne hvs (Ne.symm hv)
        have hwf : wave = false := by
          rcases hw with h | ⟨h, _⟩
          · exact h
          · exact absurd ht h.ne'
        subst hwf ht
        have hs1 : sin (atan2R (vs * 0.00508) (0 * 0.514444)) = 1 := by
          have h := (Geo.cos_atan2 (vs * 0.00508) (0 * 0.514444)).2
          have hw0 : 0 < vs * 0.00508 := by positivity
          have e : sqrt ((0 * 0.514444) ^ 2 + (vs * 0.00508) ^ 2) = vs * 0.00508 := by
            rw [show ((0 * 0.514444) ^ 2 + (vs * 0.00508) ^ 2 : ℝ) = (vs * 0.00508) ^ 2 by ring,
              sqrt_sq hw0.le]
          rw [e] at h
          exact mul_right_cancel₀ hw0.ne' (by rw [h, one_mul])
        have hc0 : ∀ m, Drag.lift m 0 vs = 0 := by
          intro m
          unfold Drag.lift
          rw [Drag.cos_atan2_eq _ _ (Or.inr (by positivity))]
          simp
        rw [hs1]
        simp only [Drag.clean, Drag.calcDrag_eq, hc0]
        norm_num
        nlinarith
  · intro mass vs acc hmass hvs hT
    simp only [enroute]
    have hsin := sin_atan2_nonneg (w := vs * 0.00508) (tas * 0.514444) (by positivity)
    have hD := (C25_drag_mass ac pol hk tas alt dT).2.2.2.1 wave mass vs
    have hle : enrouteThrust np ac pol wave mass tas alt (-vs) acc dT ≤
        enrouteThrust np ac pol wave mass tas alt vs acc dT := by
      rw [enrouteThrust_eq, enrouteThrust_eq, hD, neg_mul, sin_atan2_neg]
      nlinarith
    rcases hle.lt_or_eq with h | h
    · exact (atThrust_strictMono f hf hT h).le
    · rw [h]

example : enroute np a318fuel a320 a320polar false 60000 450 33000 0 0 0 true <
    enroute np a318fuel a320 a320polar false 65000 450 33000 0 0 0 true :=
  (C31_enroute_signs a318fuel a318fuel_ok a320 a320polar (by norm_num [a320polar])
    (by norm_num [a320polar]) false 450 33000 0 true).2.1 _ _ _ _ (by norm_num) (by norm_num)
    le_rfl le_rfl (Or.inl rfl)

/-- **C32 (refuted).** The `limit` argument has no effect on any input, and with
`limit=True` the fuel flow keeps growing with the required thrust: for every flight state
and every fuel flow reached, a larger acceleration gives a larger one. -/
theorem C32_limit_flag_ignored (f : Params ℝ) (ac : Drag.Airframe ℝ) (pol : Drag.Polar ℝ)
    (wave : Bool) (mass tas alt vs acc dT : ℝ) :
    enroute np f ac pol wave mass tas alt vs acc dT true =
      enroute np f ac pol wave mass tas alt vs acc dT false ∧
    ¬ ∃ mass tas alt vs acc dT, enroute np f ac pol wave mass tas alt vs acc dT true ≠
      enroute np f ac pol wave mass tas alt vs acc dT false :=
  ⟨rfl, fun ⟨_, _, _, _, _, _, h⟩ => h rfl⟩

/-- **C32 (refuted, consequence).** There is no thrust cap with `limit=True`: beyond any
required thrust, more required thrust still costs more fuel. -/
theorem C32_no_thrust_cap (f : Params ℝ) (hf : Fuel.Ok f) (ac : Drag.Airframe ℝ)
    (pol : Drag.Polar ℝ) (wave : Bool) (mass tas alt vs dT : ℝ) (hm : 0 < mass) (cap : ℝ) :
    ∃ a1 a2, cap < enrouteThrust np ac pol wave mass tas alt vs a1 dT ∧
      enroute np f ac pol wave mass tas alt vs a1 dT true <
        enroute np f ac pol wave mass tas alt vs a2 dT true := by
  set B := Drag.clean np ac pol wave mass tas alt vs dT +
      mass * 9.81 * sin (atan2R (vs * 0.00508) (tas * 0.514444))
  have hpos : 0 < f.number * f.maxThrust := mul_pos hf.num hf.max
  set a := (|cap| + |B| + 1) / mass
  have ha : mass * a = |cap| + |B| + 1 := by simp only [a]; field_simp
  have hT : enrouteThrust np ac pol wave mass tas alt vs a dT = B + (|cap| + |B| + 1) := by
    rw [enrouteThrust_eq, ha]
  have h1 := le_abs_self cap
  have h2 := neg_abs_le B
  have h3 := abs_nonneg cap
  refine ⟨a, a + 1, by rw [hT]; linarith, ?_⟩
  simp only [enroute]
  refine atThrust_strictMono f hf ?_ ?_
  · rw [hT]; norm_num; linarith
  · rw [enrouteThrust_eq, enrouteThrust_eq]; nlinarith

/-- **C33 (refuted).** Omitting the altitude raises `TypeError` for every speed, so the
documented sea-level default does not exist. -/
theorem C33_default_altitude_raises (f : Params ℝ) (e : Thrust.Params ℝ) (tas throttle : ℝ) :
    FuelCall.takeoff f e tas = .error .typeError ∧
    FuelCall.takeoff f e tas (throttle := throttle) = .error .typeError ∧
    FuelCall.takeoff f e tas ≠ FuelCall.takeoff f e tas (.num 0) := by
  refine ⟨rfl, rfl, ?_⟩
  intro h
  have h1 : FuelCall.takeoff f e tas = .error .typeError := rfl
  rw [h1] at h
  simp [FuelCall.takeoff, FuelCall.thrustTakeoff, FuelCall.Arg.mul, bind, Except.bind, pure,
    Except.pure] at h

/-- **C33.** With an explicit altitude the call succeeds, is linear in the throttle and
equals the fuel flow at the take-off thrust at full throttle, which is the default. -/
theorem C33_takeoff_explicit (f : Params ℝ) (e : Thrust.Params ℝ) (tas alt throttle : ℝ) :
    Fuel.takeoff np f e tas alt throttle =
      throttle * atThrust np f (Thrust.takeoff np e tas alt 0) ∧
    FuelCall.takeoff f e tas (.num alt) throttle =
      .ok (throttle * atThrust np f (Thrust.takeoff np e tas alt 0)) ∧
    FuelCall.takeoff f e tas (.num alt) = .ok (atThrust np f (Thrust.takeoff np e tas alt 0)) := by
  have : (0.0 : ℝ) = 0 := by norm_num
  simp only [one_mul, and_self, Fuel.takeoff, FuelCall.takeoff, FuelCall.thrustTakeoff, FuelCall.Arg.mul, bind, Except.bind, pure,
    Except.pure, Thrust.takeoff, this]

end Verif.Props
