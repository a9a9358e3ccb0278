import Verif.Lemmas.AutodiffPerf
import Verif.Lemmas.AutodiffJax
import Verif.Model.JaxRecords
import Verif.Props.Drag
import Verif.Props.Thrust

/-!
# C118: gradients computed by JAX are the derivatives

`E` is the space of whatever is differentiated (one number, a trajectory, weights of a network);
the arguments of the openap function are functions of it whose own JAX derivatives are right.
-/

namespace Verif.Props
open Verif.Aero Verif.Geo Verif.Spec Verif.AD Verif.NR

variable {E : Type} [NormedAddCommGroup E] [NormedSpace ℝ E] {x v : E}
  {h d u m p w f : E → ℝ} {H D U M P W F : Dual}

/-- **C118** Atmosphere: exact away from 11000 m and from the ends of the clip range of dT. -/
theorem C118_atmosphere (hh : ExactJvp h x v H) (hd : ExactJvp d x v D) (h11 : Clear h x 11000)
    (h1 : Clear d x (-25)) (h2 : Clear d x 15) :
    ExactJvp (fun y => temperature np (h y) (d y)) x v (temperature jaxDual H D) ∧
    ExactJvp (fun y => pressure np (h y) (d y)) x v (pressure jaxDual H D) ∧
    ExactJvp (fun y => density np (h y) (d y)) x v (density jaxDual H D) ∧
    ExactJvp (fun y => vsound np (h y) (d y)) x v (vsound jaxDual H D) :=
  have hS := clipT (v := jaxForward _ _) hd h1 h2
  have a := atmosT (v := jaxForward _ _) hh hS h11
  ⟨a.2.2, a.1, a.2.1, vsoundT (v := jaxForward _ _) hh hS h11⟩

/-- The derivative of pressure with respect to altitude at 5000 m. -/
example : (pressure jaxDual (Dual.seed 5000 1) (Dual.const 3)).t =
    .val (deriv (fun h => pressure np h 3) 5000) := by
  have := (C118_atmosphere (E := ℝ) (x := 5000) (v := 1) (h := id) (d := fun _ => 3)
    (H := Dual.seed 5000 1) (D := Dual.const 3) (Jvp.linT (ContinuousLinearMap.id ℝ ℝ)) (Jvp.constT 3)
    (Or.inl (by norm_num)) (Or.inl (by norm_num)) (Or.inl (by norm_num))).2.1.2.2
  simpa using this

/-- **C118** Airspeeds: those through calibrated airspeed also need a speed other than zero. -/
theorem C118_airspeed (hu : ExactJvp u x v U) (hh : ExactJvp h x v H) (hd : ExactJvp d x v D)
    (h11 : Clear h x 11000) (h1 : Clear d x (-25)) (h2 : Clear d x 15) :
    ExactJvp (fun y => tas2mach np (u y) (h y) (d y)) x v (tas2mach jaxDual U H D) ∧
    ExactJvp (fun y => mach2tas np (u y) (h y) (d y)) x v (mach2tas jaxDual U H D) ∧
    ExactJvp (fun y => eas2tas np (u y) (h y) (d y)) x v (eas2tas jaxDual U H D) ∧
    ExactJvp (fun y => tas2eas np (u y) (h y) (d y)) x v (tas2eas jaxDual U H D) ∧
    (u x ≠ 0 →
      ExactJvp (fun y => cas2tas np (u y) (h y) (d y)) x v (cas2tas jaxDual U H D) ∧
      ExactJvp (fun y => tas2cas np (u y) (h y) (d y)) x v (tas2cas jaxDual U H D) ∧
      ExactJvp (fun y => mach2cas np (u y) (h y) (d y)) x v (mach2cas jaxDual U H D) ∧
      ExactJvp (fun y => cas2mach np (u y) (h y) (d y)) x v (cas2mach jaxDual U H D)) :=
  have hS := clipT (v := jaxForward _ _) hd h1 h2
  ⟨tas2machT (v := jaxForward _ _) hu hh hS h11, mach2tasT (v := jaxForward _ _) hu hh hS h11, eas2tasT (v := jaxForward _ _) hu hh hS h11, tas2easT (v := jaxForward _ _) hu hh hS h11,
    fun h0 => ⟨cas2tasT (v := jaxForward _ _) hu hh hS h11 h0, tas2casT (v := jaxForward _ _) hu hh hS h11 h0, mach2casT (v := jaxForward _ _) hu hh hS h11 h0,
      cas2machT (v := jaxForward _ _) hu hh hS h11 h0⟩⟩

example : (cas2tas jaxDual (Dual.seed 150 1) (Dual.const 9000) (Dual.const 0)).t =
    .val (deriv (fun u => cas2tas np u 9000 0) 150) := by
  have := ((C118_airspeed (E := ℝ) (x := 150) (v := 1) (u := id) (h := fun _ => 9000)
    (d := fun _ => 0) (Jvp.linT (ContinuousLinearMap.id ℝ ℝ)) (Jvp.constT 9000) (Jvp.constT 0)
    (Or.inl (by norm_num)) (Or.inl (by norm_num)) (Or.inl (by norm_num))).2.2.2.2
    (by norm_num)).1.2.2
  simpa using this

/-- **C118** Pressure altitude and crossover altitude. -/
theorem C118_altitudes (hd : ExactJvp d x v D) :
    (∀ {p : E → ℝ} {P : Dual}, ExactJvp p x v P → 0 < p x → Clear p x 22630 →
      ExactJvp (fun y => hIsa np (p y) (d y)) x v (hIsa jaxDual P D)) ∧
    (ExactJvp u x v U → ExactJvp m x v M → u x ≠ 0 → Clear m x 0.0001 →
      ExactJvp (fun y => crossoverAlt np (u y) (m y) (d y)) x v (crossoverAlt jaxDual U M D)) :=
  ⟨fun hp h0 h1 => hIsaT (v := jaxForward _ _) hp hd h0 h1, fun hu hm h0 h1 => crossoverT (v := jaxForward _ _) hu hm hd h0 h1⟩

example : (crossoverAlt jaxDual (Dual.seed 154 1) (Dual.const 0.78) (Dual.const 0)).t =
    .val (deriv (fun u => crossoverAlt np u 0.78 0) 154) := by
  have := ((C118_altitudes (E := ℝ) (x := 154) (v := 1) (u := id) (m := fun _ => 0.78)
    (d := fun _ => 0) (Jvp.constT 0)).2 (Jvp.linT (ContinuousLinearMap.id ℝ ℝ)) (Jvp.constT 0.78)
    (by norm_num) (Or.inl (by norm_num))).2.2
  simpa using this

/-- **C118** At the tropopause JAX reports half the lapse rate; no derivative exists there. -/
theorem C118_tropopause (d v : ℝ) (h1 : -25 < d) (h2 : d < 15) :
    (temperature jaxDual (Dual.seed 11000 v) (Dual.const d)).t = .val (-0.00325 * v) ∧
    ¬ DifferentiableAt ℝ (fun h => temperature np h d) 11000 := by
  constructor
  · have hc : jaxDual.clip (Dual.const d) (-25.0) 15.0 = Dual.const d := by
      have hS := Jvp.clipT (E := ℝ) (x := 0) (v := 0) (Jvp.constT d) (Or.inl h1.ne') (Or.inl h2.ne)
      refine Dual.ext ?_ ?_
      · rw [hS.2.1]
        show NR.val (min (max d (-25.0)) 15.0) = .val d
        rw [max_eq_left (by norm_num; exact h1.le), min_eq_left (by norm_num; exact h2.le)]
      · rw [hS.2.2]; simp [Dual.const]
    show (Dual.pick max (T0 + jaxDual.clip (Dual.const d) (-25.0) 15.0 +
      beta * Dual.seed 11000 v) (216.65 + jaxDual.clip (Dual.const d) (-25.0) 15.0)).t = _
    rw [hc]
    have e1 : (T0 + Dual.const d + beta * Dual.seed 11000 v : Dual) =
        ⟨.val (216.65 + d), .val (-0.0065 * v)⟩ := by
      have hb : (beta : Dual) = ⟨.val (-0.0065), .val 0⟩ :=
        Dual.ext rfl (by show -NR.val 0 = _; rw [val_neg, neg_zero])
      rw [hb]
      refine Dual.ext ?_ ?_
      · show NR.val (288.15 + d + -0.0065 * 11000) = _
        congr 1; norm_num; ring
      · show NR.val (0 + 0 + (0 * 11000 + -0.0065 * v)) = _
        congr 1; ring
    have e2 : (216.65 + Dual.const d : Dual) = ⟨.val (216.65 + d), .val 0⟩ := by
      refine Dual.ext rfl ?_
      show NR.val (0 + 0) = _
      rw [add_zero]
    rw [e1, e2]
    show NR.val (-0.0065 * v) * NR.val (Dual.balanced (216.65 + d) (max (216.65 + d) (216.65 + d))
      (216.65 + d)) + NR.val 0 * NR.val (Dual.balanced (216.65 + d)
        (max (216.65 + d) (216.65 + d)) (216.65 + d)) = _
    simp only [max_self, Dual.balanced, if_true, val_mul, val_add]
    congr 1; ring
  · intro hd
    have hc : np.clip d (-25.0) 15.0 = d := by
      show min (max d (-25.0)) 15.0 = d
      rw [max_eq_left (by norm_num; exact h1.le), min_eq_left (by norm_num; exact h2.le)]
    have e : (fun h => temperature np h d) = fun h => max (288.15 + d + -0.0065 * h) (216.65 + d) := by
      funext h
      show max (288.15 + np.clip d (-25.0) 15.0 + -0.0065 * h) (216.65 + np.clip d (-25.0) 15.0) = _
      rw [hc]
    rw [e] at hd
    have k := hd.hasDerivAt
    have kl : HasDerivWithinAt (fun h : ℝ => max (288.15 + d + -0.0065 * h) (216.65 + d)) (-0.0065)
        (Set.Iic 11000) 11000 := by
      have : HasDerivAt (fun h : ℝ => 288.15 + d + -0.0065 * h) (-0.0065) 11000 := by
        simpa using ((hasDerivAt_id (11000 : ℝ)).const_mul (-0.0065)).const_add (288.15 + d)
      refine this.hasDerivWithinAt.congr (fun h hh => ?_) ?_
      · rw [max_eq_left]
        have : h ≤ 11000 := hh
        norm_num; linarith
      · rw [max_eq_left]; norm_num; linarith
    have kr : HasDerivWithinAt (fun h : ℝ => max (288.15 + d + -0.0065 * h) (216.65 + d)) 0
        (Set.Ici 11000) 11000 := by
      refine (hasDerivWithinAt_const (11000 : ℝ) _ (216.65 + d)).congr (fun h hh => ?_) ?_
      · rw [max_eq_right]
        have : 11000 ≤ h := hh
        norm_num; linarith
      · rw [max_eq_right]; norm_num; linarith
    have e1 := (uniqueDiffOn_Iic (11000 : ℝ) 11000 Set.self_mem_Iic).eq_deriv _
      k.hasDerivWithinAt kl
    have e2 := (uniqueDiffOn_Ici (11000 : ℝ) 11000 Set.self_mem_Ici).eq_deriv _
      k.hasDerivWithinAt kr
    rw [e1] at e2
    norm_num at e2

/-- **C118** At zero speed the conversions through calibrated airspeed have no finite gradient. -/
theorem C118_zero_speed (hu : ExactJvp u x v U) (hh : ExactJvp h x v H) (hd : ExactJvp d x v D)
    (h11 : Clear h x 11000) (h1 : Clear d x (-25)) (h2 : Clear d x 15) (h0 : u x = 0) :
    NoTangent (cas2tas jaxDual U H D) ∧ NoTangent (tas2cas jaxDual U H D) :=
  ⟨cas2tas_no hu hh (clipT (v := jaxForward _ _) hd h1 h2) h11 h0, tas2cas_no hu hh (clipT (v := jaxForward _ _) hd h1 h2) h11 h0⟩

example (v : ℝ) : NoTangent (cas2tas jaxDual (Dual.seed 0 v) (Dual.const 0) (Dual.const 0)) :=
  (C118_zero_speed (E := ℝ) (x := 0) (v := v) (u := id) (h := fun _ => 0) (d := fun _ => 0)
    (Jvp.linT (ContinuousLinearMap.id ℝ ℝ)) (Jvp.constT 0) (Jvp.constT 0)
    (Or.inl (by norm_num)) (Or.inl (by norm_num)) (Or.inl (by norm_num)) rfl).1

/-- **C118** Distance: exact between any two places that are neither the same nor antipodal,
without a finite gradient between those. -/
theorem C118_distance {a l c m : E → ℝ} {A L C M : Dual} (ha : ExactJvp a x v A)
    (hl : ExactJvp l x v L) (hc : ExactJvp c x v C) (hm : ExactJvp m x v M)
    (hh : ExactJvp h x v H) :
    (globe (a x) (l x) ≠ globe (c x) (m x) → globe (a x) (l x) ≠ -globe (c x) (m x) →
      ExactJvp (fun y => distance np (a y) (l y) (c y) (m y) (h y)) x v
        (distance jaxDual A L C M H)) ∧
    (globe (a x) (l x) = globe (c x) (m x) ∨ globe (a x) (l x) = -globe (c x) (m x) →
      NoTangent (distance jaxDual A L C M H)) :=
  ⟨distanceT (v := jaxForward _ _) ha hl hc hm hh, distance_no ha hl hc hm⟩

/-- From (0, 0) to (0, 90). -/
example : (distance jaxDual (Dual.seed 0 1) (Dual.const 0) (Dual.const 0) (Dual.const 90)
    (Dual.const 0)).t = .val (deriv (fun a => distance np a 0 0 90 0) 0) := by
  have g0 : globe 0 0 0 = 1 := by simp [globe, rad]
  have g1 : globe 0 90 0 = 0 := by
    have : rad 90 = Real.pi / 2 := by unfold rad; ring
    simp [globe, this]
  have := (C118_distance (E := ℝ) (x := 0) (v := 1) (a := id) (l := fun _ => 0) (c := fun _ => 0)
    (m := fun _ => 90) (h := fun _ => 0) (Jvp.linT (ContinuousLinearMap.id ℝ ℝ)) (Jvp.constT 0) (Jvp.constT 0)
    (Jvp.constT 90) (Jvp.constT 0)).1 (fun h => by
      have := congrArg (fun q => q 0) h
      simp only [id, g0, g1] at this
      norm_num at this) (fun h => by
      have := congrArg (fun q => q 0) h
      simp only [id, g0, PiLp.neg_apply, g1] at this
      norm_num at this)
  simpa using this.2.2

/-- **C118** Bearing: exact in every direction but due north. -/
theorem C118_bearing {a l c m : E → ℝ} {A L C M : Dual} (ha : ExactJvp a x v A)
    (hl : ExactJvp l x v L) (hc : ExactJvp c x v C) (hm : ExactJvp m x v M)
    (h0 : bearing np (a x) (l x) (c x) (m x) ≠ 0) :
    ExactJvp (fun y => bearing np (a y) (l y) (c y) (m y)) x v (bearing jaxDual A L C M) :=
  bearingT (v := jaxForward _ _) ha hl hc hm h0

/-- East along the equator, turned by the latitude of the target. -/
example : (bearing jaxDual (Dual.const 0) (Dual.const 0) (Dual.seed 0 1) (Dual.const 90)).t =
    .val (deriv (fun c => bearing np 0 0 c 90) 0) := by
  have hb : bearing np 0 0 0 90 ≠ 0 := by
    have r0 : rad 0 = 0 := by unfold rad; ring
    have r9 : rad 90 = Real.pi / 2 := by unfold rad; ring
    rw [bearing_eq]
    have e1 : eastC 0 0 0 90 = 1 := by simp [eastC, r0, r9]
    have e2 : northC 0 0 0 90 = 0 := by simp [northC, r0, r9]
    rw [e1, e2, compass 1 0 (by norm_num)]
    have : -Real.pi < atan2R (-1) (-0) := Complex.neg_pi_lt_arg _
    have := Real.pi_pos
    have : 0 < (atan2R (-1) (-0) + Real.pi) * (180 / Real.pi) :=
      mul_pos (by linarith) (by positivity)
    exact this.ne'
  have := C118_bearing (E := ℝ) (x := 0) (v := 1) (a := fun _ => 0) (l := fun _ => 0) (c := id)
    (m := fun _ => 90) (Jvp.constT 0) (Jvp.constT 0) (Jvp.linT (ContinuousLinearMap.id ℝ ℝ)) (Jvp.constT 90) hb
  simpa using this.2.2

/-- **C118** Destination: exact unless it starts or ends at a pole or the longitude changes by
half a turn. -/
theorem C118_destination {a l s b : E → ℝ} {A L S B : Dual} (ha : ExactJvp a x v A)
    (hl : ExactJvp l x v L) (hs : ExactJvp s x v S) (hb : ExactJvp b x v B)
    (hh : ExactJvp h x v H) (hR : 6371000 + h x ≠ 0) (hz : Real.cos (rad (a x)) ≠ 0)
    (hp : |(latlon np (a x) (l x) (s x) (b x) (h x)).1| ≠ 90)
    (ht : (latlon np (a x) (l x) (s x) (b x) (h x)).2 ≠ l x + 180) :
    ExactJvp (fun y => (latlon np (a y) (l y) (s y) (b y) (h y)).1) x v
      (latlon jaxDual A L S B H).1 ∧
    ExactJvp (fun y => (latlon np (a y) (l y) (s y) (b y) (h y)).2) x v
      (latlon jaxDual A L S B H).2 :=
  latlonT (v := jaxForward _ _) ha hl hs hb hh hR hp ht hz

/-- A step of no length eastwards from (0, 0), as a trajectory optimiser starts with. -/
example : (latlon jaxDual (Dual.const 0) (Dual.const 0) (Dual.seed 0 1) (Dual.const 90)
    (Dual.const 0)).2.t = .val (deriv (fun s => (latlon np 0 0 s 90 0).2) 0) := by
  have e : latlon np 0 0 0 90 0 = (0, 0) := by
    have : atan2R 0 1 = 0 := by unfold atan2R; exact Complex.arg_ofReal_of_nonneg zero_le_one
    simp [latlon, np, this]
  have := (C118_destination (E := ℝ) (x := 0) (v := 1) (a := fun _ => 0) (l := fun _ => 0)
    (s := id) (b := fun _ => 90) (h := fun _ => 0) (Jvp.constT 0) (Jvp.constT 0)
    (Jvp.linT (ContinuousLinearMap.id ℝ ℝ)) (Jvp.constT 90) (Jvp.constT 0) (by norm_num)
    (by simp [rad]) (by simp only [id, e]; norm_num) (by simp only [id, e]; norm_num)).2
  simpa using this.2.2

/-- **C118** Drag, for every aircraft and polar with the stated signs. -/
theorem C118_drag (ac : Drag.Airframe ℝ) (pol : Drag.Polar ℝ)
    (hm : ExactJvp m x v M) (hu : ExactJvp u x v U) (hh : ExactJvp h x v H)
    (hw : ExactJvp w x v W) (hd : ExactJvp d x v D) (h1 : Clear d x (-25)) (h2 : Clear d x 15)
    (h11 : Clear (fun y => h y * 0.3048) x 11000) (h0 : 0 < u x)
    (hq : Clear (fun y => 0.5 * density np (h y * 0.3048) (d y) * (u y * 0.514444) ^ 2 * ac.area)
      x 0.001) :
    (∀ wave : Bool, (wave = true → Real.cos (ac.sweep * Real.pi / 180) ≠ 0) →
      ExactJvp (fun y => Drag.clean np ac pol wave (m y) (u y) (h y) (w y) (d y)) x v
        (Drag.clean jaxDual (Dual.airframe ac) (Dual.polar pol) wave M U H W D)) ∧
    (∀ gear : Bool, 0 < pol.k → 0 < ac.area → 0 < pol.cfc → 0 < ac.mtow → ExactJvp f x v F →
      0 ≤ f x → ExactJvp (fun y => Drag.nonclean np ac pol (m y) (u y) (h y) (f y) (w y) (d y) gear)
        x v (Drag.nonclean jaxDual (Dual.airframe ac) (Dual.polar pol) M U H F W D gear)) :=
  have hS := clipT (v := jaxForward _ _) hd h1 h2
  ⟨fun wave hs => cleanT (v := jaxForward _ _) ac pol wave hs hm hu hh hw hS h11 h0 hq,
    fun gear hk hA hcf hmt hf hf0 => noncleanT (v := jaxForward _ _) ac pol gear hk hA hcf hmt hm hu hh hf hw hS h11 h0
      hf0 hq⟩

/-- The example of the module documentation: `jax.grad` of `drag.clean` in the mass. -/
example : (Drag.clean jaxDual (Dual.airframe a320) (Dual.polar a320polar) false
    (Dual.seed 60000 1) (Dual.const 250) (Dual.const 20000) (Dual.const 0) (Dual.const 0)).t =
    .val (deriv (fun m => Drag.clean np a320 a320polar false m 250 20000 0 0) 60000) := by
  have := ((C118_drag (E := ℝ) (x := 60000) (v := 1) (m := id) (u := fun _ => 250)
    (h := fun _ => 20000) (w := fun _ => 0) (d := fun _ => 0) (f := fun _ => 0)
    (F := Dual.const 0) a320 a320polar
    (Jvp.linT (ContinuousLinearMap.id ℝ ℝ)) (Jvp.constT 250) (Jvp.constT 20000) (Jvp.constT 0) (Jvp.constT 0)
    (Or.inl (by norm_num)) (Or.inl (by norm_num)) (Or.inl (by norm_num)) (by norm_num)
    (AD.Clear.const _ _)).1 false (by simp)).2.2
  simpa using this

/-- **C118** Thrust. -/
theorem C118_thrust (e : Thrust.Params ℝ) (hu : ExactJvp u x v U) (hh : ExactJvp h x v H)
    (hd : ExactJvp d x v D) (h1 : Clear d x (-25)) (h2 : Clear d x 15)
    (h11 : Clear (fun y => h y * 0.3048) x 11000) :
    (0 < e.bpr →
      ExactJvp (fun y => Thrust.takeoff np e (u y) (h y) (d y)) x v
        (Thrust.takeoff jaxDual (Dual.thrust e) U H D) ∧
      ExactJvp (fun y => Thrust.descentIdle np e (u y) (h y) (d y)) x v
        (Thrust.descentIdle jaxDual (Dual.thrust e) U H D)) ∧
    (0 < e.cruiseMach → e.cruiseThrust * e.number ≠ 0 → Clear u x 10 → Clear h x 10000 →
      Clear h x 30000 →
      ExactJvp (fun y => Thrust.cruise np e (u y) (h y) (d y)) x v
        (Thrust.cruise jaxDual (Dual.thrust e) U H D) ∧
      (ExactJvp w x v W → Clear w x 0 →
        ExactJvp (fun y => Thrust.climb np e (u y) (h y) (w y) (d y)) x v
          (Thrust.climb jaxDual (Dual.thrust e) U H W D))) :=
  have hS := clipT (v := jaxForward _ _) hd h1 h2
  ⟨fun hb => ⟨takeoffT (v := jaxForward _ _) e hb hu hh hS h11, descentIdleT (v := jaxForward _ _) e hb hu hh hS h11⟩,
    fun hM hF hu0 h10 h30 => ⟨cruiseT (v := jaxForward _ _) e hM hF hu hh hS h11 hu0 h10 h30,
      fun hw hw0 => climbT (v := jaxForward _ _) e hM hF hu hh hw hS h11 hu0 hw0 h10 h30⟩⟩

example : (Thrust.climb jaxDual (Dual.thrust a320thrust) (Dual.seed 300 1) (Dual.const 20000)
    (Dual.const 1500) (Dual.const 0)).t =
    .val (deriv (fun u => Thrust.climb np a320thrust u 20000 1500 0) 300) := by
  have := (((C118_thrust (E := ℝ) (x := 300) (v := 1) (u := id)
    (h := fun _ => 20000) (w := fun _ => 1500) (d := fun _ => 0) a320thrust
    (Jvp.linT (ContinuousLinearMap.id ℝ ℝ)) (Jvp.constT 20000) (Jvp.constT 0)
    (Or.inl (by norm_num)) (Or.inl (by norm_num)) (Or.inl (by norm_num))).2
    (by norm_num [a320thrust]) (by norm_num [a320thrust]) (Or.inl (by norm_num))
    (Or.inl (by norm_num)) (Or.inl (by norm_num))).2 (Jvp.constT 1500) (Or.inl (by norm_num))).2.2
  simpa using this

/-- **C118** Fuel flow at a thrust, at take-off and enroute. -/
theorem C118_fuel (p : Fuel.Params ℝ) (p1 : 0 < p.c1) (p2 : p.c2 ≠ 0) (p3 : p.number ≠ 0)
    (p4 : p.maxThrust ≠ 0) (hf : ExactJvp f x v F) (hu : ExactJvp u x v U)
    (hh : ExactJvp h x v H) :
    ExactJvp (fun y => Fuel.atThrust np p (f y)) x v (Fuel.atThrust jaxDual (Dual.fuel p) F) ∧
    (Clear (fun y => h y * 0.3048) x 11000 →
      (∀ e : Thrust.Params ℝ, 0 < e.bpr →
        ExactJvp (fun y => Fuel.takeoff np p e (u y) (h y) (f y)) x v
          (Fuel.takeoff jaxDual (Dual.fuel p) (Dual.thrust e) U H F)) ∧
      ∀ (ac : Drag.Airframe ℝ) (pol : Drag.Polar ℝ) (wave lim : Bool),
        (wave = true → Real.cos (ac.sweep * Real.pi / 180) ≠ 0) →
        ExactJvp m x v M → ExactJvp w x v W → ExactJvp d x v D → Clear d x (-25) → Clear d x 15 →
        0 < u x →
        Clear (fun y => 0.5 * density np (h y * 0.3048) (d y) * (u y * 0.514444) ^ 2 * ac.area)
          x 0.001 →
        ExactJvp (fun y => Fuel.enroute np p ac pol wave (m y) (u y) (h y) (w y) (f y) (d y) lim)
          x v (Fuel.enroute jaxDual (Dual.fuel p) (Dual.airframe ac) (Dual.polar pol) wave
            M U H W F D lim)) :=
  ⟨atThrustT (v := jaxForward _ _) p p1 p2 p3 p4 hf, fun h11 => ⟨fun e hb => fuelTakeoffT (v := jaxForward _ _) p p1 p2 p3 p4 e hb hu hh hf h11,
    fun ac pol wave lim hs hm hw hd h1 h2 h0 hq => enrouteT (v := jaxForward _ _) p p1 p2 p3 p4 ac pol wave lim hs hm hu
      hh hw hf (clipT (v := jaxForward _ _) hd h1 h2) h11 h0 hq⟩⟩

example : (Fuel.atThrust jaxDual (Dual.fuel ⟨1.2, 1.1, 2, 0.3, 117900, 2⟩) (Dual.seed 60000 1)).t =
    .val (deriv (fun T => Fuel.atThrust np ⟨1.2, 1.1, 2, 0.3, 117900, 2⟩ T) 60000) := by
  have := (C118_fuel (E := ℝ) (x := 60000) (v := 1) (f := id) (u := fun _ => 0) (h := fun _ => 0)
    (U := Dual.const 0) (H := Dual.const 0) (m := fun _ => 0) (M := Dual.const 0)
    (w := fun _ => 0) (W := Dual.const 0) (d := fun _ => 0) (D := Dual.const 0)
    ⟨1.2, 1.1, 2, 0.3, 117900, 2⟩ (by norm_num) (by norm_num) (by norm_num) (by norm_num)
    (Jvp.linT (ContinuousLinearMap.id ℝ ℝ)) (Jvp.constT 0) (Jvp.constT 0)).1.2.2
  simpa using this

/-- **C118** Emissions, for engines with increasing certified fuel flows, away from the
certified points. -/
theorem C118_emission (e : Emission.Params ℝ) (hf : ExactJvp f x v F) :
    (ExactJvp (fun y => Emission.co2 (f y)) x v (Emission.co2 F) ∧
      ExactJvp (fun y => Emission.h2o (f y)) x v (Emission.h2o F) ∧
      ExactJvp (fun y => Emission.soot (f y)) x v (Emission.soot F) ∧
      ExactJvp (fun y => Emission.sox (f y)) x v (Emission.sox F)) ∧
    (e.number ≠ 0 → StrictMono e.ff → ExactJvp u x v U → ExactJvp h x v H → ExactJvp d x v D →
      Clear d x (-25) → Clear d x 15 → Clear (fun y => h y * 0.3048) x 11000 →
      0.0019812 * h x < 288.15 →
      (∀ k, Clear (fun y => (Emission.fl2sl np e (f y) (u y) (h y) (d y)).1) x (e.ff k)) →
      ExactJvp (fun y => Emission.nox np e (f y) (u y) (h y) (d y)) x v
        (Emission.nox jaxDual (Dual.emission e) F U H D) ∧
      ExactJvp (fun y => Emission.co np e (f y) (u y) (h y) (d y)) x v
        (Emission.co jaxDual (Dual.emission e) F U H D) ∧
      ExactJvp (fun y => Emission.hc np e (f y) (u y) (h y) (d y)) x v
        (Emission.hc jaxDual (Dual.emission e) F U H D)) :=
  ⟨gasT (v := jaxForward _ _) hf, fun hn hff hu hh hd h1 h2 h11 ha hc => have hS := clipT (v := jaxForward _ _) hd h1 h2
    ⟨noxT (v := jaxForward _ _) e hn hff hf hu hh hS h11 ha hc (Or.inl trivial), coT (v := jaxForward _ _) e hn hff hf hu hh hS h11 ha hc (Or.inl trivial)⟩⟩

example : (Emission.nox jaxDual (Dual.emission ⟨2, ![0.1, 0.3, 0.9, 1.1], ![4, 8, 20, 25],
      ![20, 3, 1, 1], ![2, 0.2, 0.1, 0.1]⟩) (Dual.seed 0 1) (Dual.const 250) (Dual.const 20000)
      (Dual.const 0)).t =
    .val (deriv (fun f => Emission.nox np ⟨2, ![0.1, 0.3, 0.9, 1.1], ![4, 8, 20, 25],
      ![20, 3, 1, 1], ![2, 0.2, 0.1, 0.1]⟩ f 250 20000 0) 0) := by
  have := ((C118_emission (E := ℝ) (x := 0) (v := 1) (f := id) (u := fun _ => 250)
    (h := fun _ => 20000) (d := fun _ => 0) ⟨2, ![0.1, 0.3, 0.9, 1.1], ![4, 8, 20, 25],
      ![20, 3, 1, 1], ![2, 0.2, 0.1, 0.1]⟩ (Jvp.linT (ContinuousLinearMap.id ℝ ℝ))).2 (by norm_num)
    (by rw [Fin.strictMono_iff_lt_succ]; intro i; fin_cases i <;> norm_num [Fin.succ])
    (Jvp.constT 250) (Jvp.constT 20000) (Jvp.constT 0) (Or.inl (by norm_num)) (Or.inl (by norm_num))
    (Or.inl (by norm_num)) (by norm_num) (by
      intro k
      left
      fin_cases k <;> norm_num [Emission.fl2sl])).1
  simpa using this.2.2

end Verif.Props
