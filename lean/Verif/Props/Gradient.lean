import Verif.Lemmas.AutodiffPerf
import Verif.Lemmas.Gradient
import Verif.Props.Drag
import Verif.Props.Thrust
import Mathlib.Analysis.Calculus.Deriv.Pi

/-!
# C123: gradients in reverse mode and by CasADi are the derivatives too

`ι` names the inputs that are differentiated; the arguments of the openap function are functions of them
whose own derivatives are right. `M` is any of `jax.jvp`, `jax.grad`, and CasADi going forward or back,
with any rule for operands of `fmax` and `fmin` that tie.
-/

namespace Verif.Props
open Verif.Aero Verif.Geo Verif.Spec Verif.AD Verif.NR

variable {ι : Type} [Fintype ι] [DecidableEq ι] {x : ι → ℝ} {M : Mode x}
  {h d u m w f : (ι → ℝ) → ℝ} {H D U K W F : M.N}

/-- **C123** The inputs are right, whichever way one differentiates. -/
theorem C123_input (x v : ι → ℝ) (w : ℝ) (i : ι) :
    (jaxForward x v).Ex (fun y => y i) (Dual.seed (x i) (v i)) ∧
    (casadiForward w x v).Ex (fun y => y i) ⟨.val (x i), .val (v i)⟩ ∧
    (jaxReverse x).Ex (fun y => y i) (input x i) ∧
    (casadiReverse w x).Ex (fun y => y i) (input x i) := by
  have hd : HasFDerivAt (fun y : ι → ℝ => y i) (ContinuousLinearMap.proj (R := ℝ)
    (φ := fun _ => ℝ) i) x := hasFDerivAt_apply i x
  have hr : ExactGrad (fun y => y i) x (input x i) := by
    refine ⟨hd.differentiableAt, rfl, fun c j => ?_⟩
    rw [hd.fderiv]
    by_cases h : j = i
    · subst h; simp [input]
    · simp [input, h, Ne.symm h]
  exact ⟨⟨hd.differentiableAt, rfl, by rw [hd.fderiv]; rfl⟩,
    ⟨hd.differentiableAt, rfl, by rw [hd.fderiv]; rfl⟩, hr, hr⟩

/-- **C123** With the right result, handing back 1 gives the partial derivatives, and the tangent is
their sum along the direction. -/
theorem C123_partials (x v : ι → ℝ) (f : (ι → ℝ) → ℝ) :
    (∀ A : Jet (Pull ι), ExactGrad f x A → ∀ i,
      A.t (.val 1) i = .val (deriv (fun s => f (Function.update x i s)) (x i))) ∧
    ∀ A : Jet NR, ExactTangent f x v A →
      A.t = .val (∑ i, v i * deriv (fun s => f (Function.update x i s)) (x i)) := by
  have key : DifferentiableAt ℝ f x → ∀ i,
      deriv (fun s => f (Function.update x i s)) (x i) = fderiv ℝ f x (Pi.single i 1) := by
    intro hd i
    have h1 : HasDerivAt (fun s => Function.update x i s) (Pi.single i 1) (x i) :=
      hasDerivAt_update x i (x i)
    have h2 : HasFDerivAt f (fderiv ℝ f x) (Function.update x i (x i)) := by
      rw [Function.update_eq_self]; exact hd.hasFDerivAt
    exact (h2.comp_hasDerivAt (x i) h1).deriv
  refine ⟨fun A hA i => ?_, fun A hA => ?_⟩
  · rw [hA.2.2, one_mul, key hA.1]
  · rw [hA.2.2]
    congr 1
    conv_lhs => rw [← Finset.univ_sum_single v]
    rw [map_sum]
    refine Finset.sum_congr rfl fun i _ => ?_
    rw [key hA.1, ← smul_eq_mul, ← map_smul]
    congr 1
    ext j
    by_cases h : j = i
    · subst h; simp
    · simp [h]

/-- **C123** Atmosphere: exact away from 11000 m and from the ends of the clip range of dT. -/
theorem C123_atmosphere (hM : Autodiff x M) (hh : M.Ex h H) (hd : M.Ex d D) (h11 : Clear h x 11000)
    (h1 : Clear d x (-25)) (h2 : Clear d x 15) :
    M.Ex (fun y => temperature np (h y) (d y)) (temperature M.b H D) ∧
    M.Ex (fun y => pressure np (h y) (d y)) (pressure M.b H D) ∧
    M.Ex (fun y => density np (h y) (d y)) (density M.b H D) ∧
    M.Ex (fun y => vsound np (h y) (d y)) (vsound M.b H D) :=
  have := laws hM
  have hS := clipT hd h1 h2
  have a := atmosT hh hS h11
  ⟨a.2.2, a.1, a.2.1, vsoundT hh hS h11⟩

/-- The gradient of pressure with respect to altitude and temperature shift, by `jax.grad`. -/
example (i : Fin 2) : (pressure (jaxJet (Pull (Fin 2))) (input ![5000, 3] 0) (input ![5000, 3] 1)).t
    (.val 1) i = .val (deriv (fun s => pressure np (Function.update ![5000, 3] i s 0)
      (Function.update ![5000, 3] i s 1)) (![5000, 3] i)) :=
  (C123_partials _ 0 _).1 _ (C123_atmosphere .jaxReverse (C123_input _ 0 0 0).2.2.1
    (C123_input _ 0 0 1).2.2.1 (Or.inl (by norm_num)) (Or.inl (by norm_num))
    (Or.inl (by norm_num))).2.1 i

/-- **C123** Airspeeds: those through calibrated airspeed also need a speed other than zero. -/
theorem C123_airspeed (hM : Autodiff x M) (hu : M.Ex u U) (hh : M.Ex h H) (hd : M.Ex d D)
    (h11 : Clear h x 11000) (h1 : Clear d x (-25)) (h2 : Clear d x 15) :
    M.Ex (fun y => tas2mach np (u y) (h y) (d y)) (tas2mach M.b U H D) ∧
    M.Ex (fun y => mach2tas np (u y) (h y) (d y)) (mach2tas M.b U H D) ∧
    M.Ex (fun y => eas2tas np (u y) (h y) (d y)) (eas2tas M.b U H D) ∧
    M.Ex (fun y => tas2eas np (u y) (h y) (d y)) (tas2eas M.b U H D) ∧
    (u x ≠ 0 →
      M.Ex (fun y => cas2tas np (u y) (h y) (d y)) (cas2tas M.b U H D) ∧
      M.Ex (fun y => tas2cas np (u y) (h y) (d y)) (tas2cas M.b U H D) ∧
      M.Ex (fun y => mach2cas np (u y) (h y) (d y)) (mach2cas M.b U H D) ∧
      M.Ex (fun y => cas2mach np (u y) (h y) (d y)) (cas2mach M.b U H D)) :=
  have := laws hM
  have hS := clipT hd h1 h2
  ⟨tas2machT hu hh hS h11, mach2tasT hu hh hS h11, eas2tasT hu hh hS h11, tas2easT hu hh hS h11,
    fun h0 => ⟨cas2tasT hu hh hS h11 h0, tas2casT hu hh hS h11 h0, mach2casT hu hh hS h11 h0,
      cas2machT hu hh hS h11 h0⟩⟩

/-- By CasADi, with respect to airspeed and altitude. -/
example (w : ℝ) (i : Fin 2) : (cas2tas (casadiJet w (Pull (Fin 2))) (input ![150, 9000] 0)
    (input ![150, 9000] 1) (Jet.const 0)).t (.val 1) i =
    .val (deriv (fun s => cas2tas np (Function.update ![150, 9000] i s 0)
      (Function.update ![150, 9000] i s 1) 0) (![150, 9000] i)) :=
  (C123_partials _ 0 _).1 _ ((C123_airspeed (.casadiReverse w) (C123_input _ 0 w 0).2.2.2
    (C123_input _ 0 w 1).2.2.2 ((laws (.casadiReverse w)).const 0) (Or.inl (by norm_num))
    (Or.inl (by norm_num)) (Or.inl (by norm_num))).2.2.2.2 (by norm_num)).1 i

/-- **C123** Pressure altitude and crossover altitude. -/
theorem C123_altitudes (hM : Autodiff x M) (hd : M.Ex d D) :
    (∀ {p : (ι → ℝ) → ℝ} {P : M.N}, M.Ex p P → 0 < p x → Clear p x 22630 →
      M.Ex (fun y => hIsa np (p y) (d y)) (hIsa M.b P D)) ∧
    (M.Ex u U → M.Ex m K → u x ≠ 0 → Clear m x 0.0001 →
      M.Ex (fun y => crossoverAlt np (u y) (m y) (d y)) (crossoverAlt M.b U K D)) :=
  have := laws hM
  ⟨fun hp h0 h1 => hIsaT hp hd h0 h1, fun hu hm h0 h1 => crossoverT hu hm hd h0 h1⟩

/-- **C123** Distance: exact between any two places that are neither the same nor antipodal. -/
theorem C123_distance (hM : Autodiff x M) {a l c m : (ι → ℝ) → ℝ} {A L C K : M.N} (ha : M.Ex a A)
    (hl : M.Ex l L) (hc : M.Ex c C) (hm : M.Ex m K)
    (hh : M.Ex h H) (h1 : globe (a x) (l x) ≠ globe (c x) (m x))
    (h2 : globe (a x) (l x) ≠ -globe (c x) (m x)) :
    M.Ex (fun y => distance np (a y) (l y) (c y) (m y) (h y)) (distance M.b A L C K H) :=
  have := laws hM
  distanceT ha hl hc hm hh h1 h2

/-- **C123** Bearing: exact in every direction but due north. -/
theorem C123_bearing (hM : Autodiff x M) {a l c m : (ι → ℝ) → ℝ} {A L C K : M.N} (ha : M.Ex a A)
    (hl : M.Ex l L) (hc : M.Ex c C) (hm : M.Ex m K)
    (h0 : bearing np (a x) (l x) (c x) (m x) ≠ 0) :
    M.Ex (fun y => bearing np (a y) (l y) (c y) (m y)) (bearing M.b A L C K) :=
  have := laws hM
  bearingT ha hl hc hm h0

/-- **C123** Destination: exact unless it starts or ends at a pole or the longitude changes by
half a turn. -/
theorem C123_destination (hM : Autodiff x M) {a l s b : (ι → ℝ) → ℝ} {A L S B : M.N} (ha : M.Ex a A)
    (hl : M.Ex l L) (hs : M.Ex s S) (hb : M.Ex b B)
    (hh : M.Ex h H) (hR : 6371000 + h x ≠ 0) (hz : Real.cos (rad (a x)) ≠ 0)
    (hp : |(latlon np (a x) (l x) (s x) (b x) (h x)).1| ≠ 90)
    (ht : (latlon np (a x) (l x) (s x) (b x) (h x)).2 ≠ l x + 180) :
    M.Ex (fun y => (latlon np (a y) (l y) (s y) (b y) (h y)).1)
      (latlon M.b A L S B H).1 ∧
    M.Ex (fun y => (latlon np (a y) (l y) (s y) (b y) (h y)).2)
      (latlon M.b A L S B H).2 :=
  have := laws hM
  latlonT ha hl hs hb hh hR hp ht hz

/-- **C123** Drag, for every aircraft and polar with the stated signs. -/
theorem C123_drag (hM : Autodiff x M) (ac : Drag.Airframe ℝ) (pol : Drag.Polar ℝ)
    (hm : M.Ex m K) (hu : M.Ex u U) (hh : M.Ex h H)
    (hw : M.Ex w W) (hd : M.Ex d D) (h1 : Clear d x (-25)) (h2 : Clear d x 15)
    (h11 : Clear (fun y => h y * 0.3048) x 11000) (h0 : 0 < u x)
    (hq : Clear (fun y => 0.5 * density np (h y * 0.3048) (d y) * (u y * 0.514444) ^ 2 * ac.area)
      x 0.001) :
    (∀ wave : Bool, (wave = true → Real.cos (ac.sweep * Real.pi / 180) ≠ 0) →
      M.Ex (fun y => Drag.clean np ac pol wave (m y) (u y) (h y) (w y) (d y))
        (Drag.clean M.b (Rec.airframe M.k ac) (Rec.polar M.k pol) wave K U H W D)) ∧
    (∀ gear : Bool, 0 < pol.k → 0 < ac.area → 0 < pol.cfc → 0 < ac.mtow → M.Ex f F →
      0 ≤ f x → M.Ex (fun y => Drag.nonclean np ac pol (m y) (u y) (h y) (f y) (w y) (d y) gear)
        (Drag.nonclean M.b (Rec.airframe M.k ac) (Rec.polar M.k pol) K U H F W D gear)) :=
  have := laws hM
  have hS := clipT hd h1 h2
  ⟨fun wave hs => cleanT ac pol wave hs hm hu hh hw hS h11 h0 hq,
    fun gear hk hA hcf hmt hf hf0 => noncleanT ac pol gear hk hA hcf hmt hm hu hh hf hw hS h11 h0
      hf0 hq⟩

/-- `jax.grad` of `drag.clean` in mass and vertical rate. -/
example (i : Fin 2) : (Drag.clean (jaxJet (Pull (Fin 2))) (Rec.airframe Jet.const a320)
    (Rec.polar Jet.const a320polar) false (input ![60000, 500] 0) (Jet.const 250) (Jet.const 20000)
    (input ![60000, 500] 1) (Jet.const 0)).t (.val 1) i =
    .val (deriv (fun s => Drag.clean np a320 a320polar false (Function.update ![60000, 500] i s 0) 250
      20000 (Function.update ![60000, 500] i s 1) 0) (![60000, 500] i)) :=
  have k := (laws (.jaxReverse (x := ![60000, 500]))).const
  (C123_partials _ 0 _).1 _ ((C123_drag (M := jaxReverse _) (f := fun _ => 0) (F := Jet.const 0)
    .jaxReverse a320 a320polar (C123_input _ 0 0 0).2.2.1 (k 250) (k 20000)
    (C123_input _ 0 0 1).2.2.1 (k 0) (Or.inl (by norm_num)) (Or.inl (by norm_num))
    (Or.inl (by norm_num)) (by norm_num) (AD.Clear.const _ _)).1 false (by simp)) i

/-- **C123** Thrust. -/
theorem C123_thrust (hM : Autodiff x M) (e : Thrust.Params ℝ) (hu : M.Ex u U) (hh : M.Ex h H)
    (hd : M.Ex d D) (h1 : Clear d x (-25)) (h2 : Clear d x 15)
    (h11 : Clear (fun y => h y * 0.3048) x 11000) :
    (0 < e.bpr →
      M.Ex (fun y => Thrust.takeoff np e (u y) (h y) (d y))
        (Thrust.takeoff M.b (Rec.thrust M.k e) U H D) ∧
      M.Ex (fun y => Thrust.descentIdle np e (u y) (h y) (d y))
        (Thrust.descentIdle M.b (Rec.thrust M.k e) U H D)) ∧
    (0 < e.cruiseMach → e.cruiseThrust * e.number ≠ 0 → Clear u x 10 → Clear h x 10000 →
      Clear h x 30000 →
      M.Ex (fun y => Thrust.cruise np e (u y) (h y) (d y))
        (Thrust.cruise M.b (Rec.thrust M.k e) U H D) ∧
      (M.Ex w W → Clear w x 0 →
        M.Ex (fun y => Thrust.climb np e (u y) (h y) (w y) (d y))
          (Thrust.climb M.b (Rec.thrust M.k e) U H W D))) :=
  have := laws hM
  have hS := clipT hd h1 h2
  ⟨fun hb => ⟨takeoffT e hb hu hh hS h11, descentIdleT e hb hu hh hS h11⟩,
    fun hM hF hu0 h10 h30 => ⟨cruiseT e hM hF hu hh hS h11 hu0 h10 h30,
      fun hw hw0 => climbT e hM hF hu hh hw hS h11 hu0 hw0 h10 h30⟩⟩

/-- CasADi's directional derivative of `thrust.climb` along airspeed and altitude. -/
example (w a b : ℝ) : (Thrust.climb (casadiJet w NR) (Rec.thrust Jet.const a320thrust)
    ⟨.val 300, .val a⟩ ⟨.val 20000, .val b⟩ (Jet.const 1500) (Jet.const 0)).t =
    .val (a * deriv (fun s => Thrust.climb np a320thrust s 20000 1500 0) 300 +
      b * deriv (fun s => Thrust.climb np a320thrust 300 s 1500 0) 20000) := by
  have k := (laws (.casadiForward (x := ![300, 20000]) w ![a, b])).const
  have := (C123_partials _ _ _).2 _ (((C123_thrust (M := casadiForward w ![300, 20000] ![a, b])
    (.casadiForward w _) a320thrust
    (C123_input ![300, 20000] ![a, b] w 0).2.1 (C123_input ![300, 20000] ![a, b] w 1).2.1 (k 0)
    (Or.inl (by norm_num)) (Or.inl (by norm_num)) (Or.inl (by norm_num))).2
    (by norm_num [a320thrust]) (by norm_num [a320thrust]) (Or.inl (by norm_num))
    (Or.inl (by norm_num)) (Or.inl (by norm_num))).2 (k 1500) (Or.inl (by norm_num)))
  simp [casadiForward] at this
  exact this

/-- **C123** Fuel flow at a thrust, at take-off and enroute. -/
theorem C123_fuel (hM : Autodiff x M) (p : Fuel.Params ℝ) (p1 : 0 < p.c1) (p2 : p.c2 ≠ 0)
    (p3 : p.number ≠ 0) (p4 : p.maxThrust ≠ 0) (hf : M.Ex f F) (hu : M.Ex u U) (hh : M.Ex h H) :
    M.Ex (fun y => Fuel.atThrust np p (f y)) (Fuel.atThrust M.b (Rec.fuel M.k p) F) ∧
    (Clear (fun y => h y * 0.3048) x 11000 →
      (∀ e : Thrust.Params ℝ, 0 < e.bpr →
        M.Ex (fun y => Fuel.takeoff np p e (u y) (h y) (f y))
          (Fuel.takeoff M.b (Rec.fuel M.k p) (Rec.thrust M.k e) U H F)) ∧
      ∀ (ac : Drag.Airframe ℝ) (pol : Drag.Polar ℝ) (wave lim : Bool),
        (wave = true → Real.cos (ac.sweep * Real.pi / 180) ≠ 0) →
        M.Ex m K → M.Ex w W → M.Ex d D → Clear d x (-25) → Clear d x 15 →
        0 < u x →
        Clear (fun y => 0.5 * density np (h y * 0.3048) (d y) * (u y * 0.514444) ^ 2 * ac.area)
          x 0.001 →
        M.Ex (fun y => Fuel.enroute np p ac pol wave (m y) (u y) (h y) (w y) (f y) (d y) lim)
          (Fuel.enroute M.b (Rec.fuel M.k p) (Rec.airframe M.k ac) (Rec.polar M.k pol) wave
            K U H W F D lim)) :=
  have := laws hM
  ⟨atThrustT p p1 p2 p3 p4 hf, fun h11 => ⟨fun e hb => fuelTakeoffT p p1 p2 p3 p4 e hb hu hh hf h11,
    fun ac pol wave lim hs hm hw hd h1 h2 h0 hq => enrouteT p p1 p2 p3 p4 ac pol wave lim hs hm hu
      hh hw hf (clipT hd h1 h2) h11 h0 hq⟩⟩

/-- **C123** Emissions, for engines with increasing certified fuel flows, away from the
certified points; CasADi only between the lowest and the highest of them, as its interpolant goes on
beyond. -/
theorem C123_emission (hM : Autodiff x M) (e : Emission.Params ℝ) (hf : M.Ex f F) :
    (M.Ex (fun y => Emission.co2 (f y)) (Emission.co2 F) ∧
      M.Ex (fun y => Emission.h2o (f y)) (Emission.h2o F) ∧
      M.Ex (fun y => Emission.soot (f y)) (Emission.soot F) ∧
      M.Ex (fun y => Emission.sox (f y)) (Emission.sox F)) ∧
    (e.number ≠ 0 → StrictMono e.ff → M.Ex u U → M.Ex h H → M.Ex d D →
      Clear d x (-25) → Clear d x 15 → Clear (fun y => h y * 0.3048) x 11000 →
      0.0019812 * h x < 288.15 →
      (∀ k, Clear (fun y => (Emission.fl2sl np e (f y) (u y) (h y) (d y)).1) x (e.ff k)) →
      (M.holdsEnds ∨ e.ff 0 < (Emission.fl2sl np e (f x) (u x) (h x) (d x)).1 ∧
        (Emission.fl2sl np e (f x) (u x) (h x) (d x)).1 < e.ff 3) →
      M.Ex (fun y => Emission.nox np e (f y) (u y) (h y) (d y))
        (Emission.nox M.b (Rec.emission M.k e) F U H D) ∧
      M.Ex (fun y => Emission.co np e (f y) (u y) (h y) (d y))
        (Emission.co M.b (Rec.emission M.k e) F U H D) ∧
      M.Ex (fun y => Emission.hc np e (f y) (u y) (h y) (d y))
        (Emission.hc M.b (Rec.emission M.k e) F U H D)) :=
  have := laws hM
  ⟨gasT hf, fun hn hff hu hh hd h1 h2 h11 ha hc hr => have hS := clipT hd h1 h2
    ⟨noxT e hn hff hf hu hh hS h11 ha hc hr, coT e hn hff hf hu hh hS h11 ha hc hr⟩⟩

/-- CasADi's gradient of the NOx rate in the fuel flow at sea level, within the certified range. -/
example (w : ℝ) : (Emission.nox (casadiJet w (Pull (Fin 1))) (Rec.emission Jet.const
      ⟨2, ![0.1, 0.3, 0.9, 1.1], ![4, 8, 20, 25], ![20, 3, 1, 1], ![2, 0.2, 0.1, 0.1]⟩)
      (input ![1] 0) (Jet.const 0) (Jet.const 0) (Jet.const 0)).t (.val 1) 0 =
    .val (deriv (fun f => Emission.nox np ⟨2, ![0.1, 0.3, 0.9, 1.1], ![4, 8, 20, 25],
      ![20, 3, 1, 1], ![2, 0.2, 0.1, 0.1]⟩ f 0 0 0) 1) := by
  have k := (laws (.casadiReverse (x := ![1]) w)).const
  have e : (Emission.fl2sl np ⟨2, ![0.1, 0.3, 0.9, 1.1], ![4, 8, 20, 25],
      ![20, 3, 1, 1], ![2, 0.2, 0.1, 0.1]⟩ 1 0 0 0).1 = 0.5 := by
    have : clipR 0 (-25) 15 = 0 := by simp [clipR]
    norm_num [Emission.fl2sl, tas2mach, temperature, atmos, np, T0, beta, kts, ft, -Real.rpow_ofNat]
    rw [this, add_zero, div_self (by norm_num), Real.one_rpow]
  have := (C123_partials _ 0 _).1 _ ((C123_emission (.casadiReverse w) ⟨2, ![0.1, 0.3, 0.9, 1.1],
      ![4, 8, 20, 25], ![20, 3, 1, 1], ![2, 0.2, 0.1, 0.1]⟩ (C123_input ![1] 0 w 0).2.2.2).2
    (by norm_num) (by rw [Fin.strictMono_iff_lt_succ]; intro i; fin_cases i <;> norm_num [Fin.succ])
    (k 0) (k 0) (k 0) (Or.inl (by norm_num)) (Or.inl (by norm_num)) (Or.inl (by norm_num))
    (by norm_num) (fun j => Or.inl (by
      simp only [Matrix.cons_val_fin_one]; rw [e]; fin_cases j <;> norm_num))
    (Or.inr (by simp only [Matrix.cons_val_fin_one]; rw [e]; exact ⟨by norm_num, by
      show (0.5 : ℝ) < 1.1; norm_num⟩))).1 0
  simp [casadiReverse] at this
  exact this

end Verif.Props
