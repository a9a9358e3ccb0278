import Verif.Lemmas.Continuity
import Verif.Props.Drag
import Verif.Props.Fuel
import Verif.Props.Emission
import Verif.Props.Thrust

/-!
# C115: small changes of the inputs make small changes of the outputs

All arguments vary at once: continuity is that of functions on products.
-/

namespace Verif.Props
open Verif.Aero Real

/-- **C115.** The atmosphere is jointly continuous in altitude and temperature offset, across the
tropopause and across the ends of the admitted offsets. -/
theorem C115_atmosphere :
    (Continuous fun p : ℝ × ℝ => temperature np p.1 p.2) ∧
    (Continuous fun p : ℝ × ℝ => pressure np p.1 p.2) ∧
    (Continuous fun p : ℝ × ℝ => density np p.1 p.2) ∧
    (Continuous fun p : ℝ × ℝ => vsound np p.1 p.2) := by
  simp only [← continuousOn_univ]
  have h1 : ContinuousOn (fun p : ℝ × ℝ => p.1) Set.univ := by fun_prop
  have h2 : ContinuousOn (fun p : ℝ × ℝ => p.2) Set.univ := by fun_prop
  exact ⟨Cont.temperatureC h1 h2, Cont.pressureC h1 h2, Cont.densityC h1 h2, Cont.vsoundC h1 h2⟩

/-- **C115.** Every airspeed conversion is jointly continuous in speed (or Mach number), altitude
and temperature offset; so is the crossover altitude in CAS, Mach number and offset. -/
theorem C115_airspeed :
    (∀ f ∈ [tas2mach np, mach2tas np, eas2tas np, tas2eas np, cas2tas np, tas2cas np, mach2cas np,
      cas2mach np, crossoverAlt np], Continuous fun p : ℝ × ℝ × ℝ => f p.1 p.2.1 p.2.2) := by
  simp only [← continuousOn_univ]
  have h1 : ContinuousOn (fun p : ℝ × ℝ × ℝ => p.1) Set.univ := by fun_prop
  have h2 : ContinuousOn (fun p : ℝ × ℝ × ℝ => p.2.1) Set.univ := by fun_prop
  have h3 : ContinuousOn (fun p : ℝ × ℝ × ℝ => p.2.2) Set.univ := by fun_prop
  simp only [List.mem_cons, List.not_mem_nil, or_false, forall_eq_or_imp, forall_eq]
  exact ⟨Cont.tas2machC h1 h2 h3, Cont.mach2tasC h1 h2 h3, Cont.eas2tasC h1 h2 h3,
    Cont.tas2easC h1 h2 h3, Cont.cas2tasC h1 h2 h3, Cont.tas2casC h1 h2 h3,
    Cont.mach2casC h1 h2 h3, Cont.cas2machC h1 h2 h3, Cont.crossoverC h1 h2 h3⟩

example : Filter.Tendsto (fun x : ℝ => temperature np x x) (nhds 11000) (nhds (temperature np 11000 11000)) :=
  (C115_atmosphere.1.comp (by fun_prop : Continuous fun x : ℝ => (x, x))).tendsto 11000

/-- **C115.** The distance between two points is jointly continuous in all four coordinates and
the height, including across poles, the date line and coincident points. -/
theorem C115_distance : Continuous fun p : ℝ × ℝ × ℝ × ℝ × ℝ =>
    Geo.distance np p.1 p.2.1 p.2.2.1 p.2.2.2.1 p.2.2.2.2 := by
  unfold Geo.distance Geo.deg2rad
  simp only [np]
  fun_prop

/-- **C115.** Clean drag, with or without wave drag, is jointly continuous in mass, speed,
altitude, vertical rate and temperature offset wherever the airspeed is not zero; with flaps and
gear it is so in the flap angle too. -/
theorem C115_drag (ac : Drag.Airframe ℝ) (pol : Drag.Polar ℝ) (wave gear : Bool) :
    (ContinuousOn (fun p : ℝ × ℝ × ℝ × ℝ × ℝ =>
      Drag.clean np ac pol wave p.1 p.2.1 p.2.2.1 p.2.2.2.1 p.2.2.2.2) {p | p.2.1 ≠ 0}) ∧
    (0 < pol.k → 0 < ac.area → ContinuousOn (fun p : ℝ × ℝ × ℝ × ℝ × ℝ × ℝ =>
      Drag.nonclean np ac pol p.1 p.2.1 p.2.2.1 p.2.2.2.1 p.2.2.2.2.1 p.2.2.2.2.2 gear)
      {p | p.2.1 ≠ 0 ∧ 0 ≤ p.2.2.2.1}) := by
  constructor
  · exact Cont.cleanC ac pol wave (by fun_prop) (by fun_prop) (by fun_prop) (by fun_prop)
      (by fun_prop) fun p hp => Or.inl hp
  · intro hk hA
    exact Cont.noncleanC ac pol hk hA gear (by fun_prop) (by fun_prop) (by fun_prop) (by fun_prop)
      (by fun_prop) (by fun_prop) (fun p hp => hp.2) fun p hp => Or.inl hp.1

example : ContinuousAt (fun tas => Drag.nonclean np a320 a320polar 66000 tas 0 30 0 0 true) 130 := by
  have h := (C115_drag a320 a320polar false true).2 (by norm_num [a320polar]) (by norm_num [a320])
  have hm : ∀ tas : ℝ, 0 < tas → ((66000, tas, 0, 30, 0, 0) : ℝ × ℝ × ℝ × ℝ × ℝ × ℝ) ∈
      {p : ℝ × ℝ × ℝ × ℝ × ℝ × ℝ | p.2.1 ≠ 0 ∧ 0 ≤ p.2.2.2.1} := fun tas ht =>
    ⟨ht.ne', by norm_num⟩
  exact (h.comp (f := fun tas : ℝ => ((66000, tas, 0, 30, 0, 0) : ℝ × ℝ × ℝ × ℝ × ℝ × ℝ))
    (s := Set.Ioi 0) (by fun_prop) fun tas ht => hm tas ht).continuousAt
    (Ioi_mem_nhds (by norm_num))

/-- **C115.** At zero airspeed the drag does jump: any vertical rate other than zero removes the
whole lift-induced part, which at rest is `k (m g)² / 0.001`. -/
theorem C115_drag_at_rest (ac : Drag.Airframe ℝ) (pol : Drag.Polar ℝ) (mass alt dT : ℝ)
    (hk : pol.k ≠ 0) (hm : mass ≠ 0) :
    Drag.clean np ac pol false mass 0 alt 0 dT =
      pol.cd0 * 0.001 + pol.k * (mass * 9.80665) ^ 2 / 0.001 ∧
    (∀ vs, vs ≠ 0 → Drag.clean np ac pol false mass 0 alt vs dT = pol.cd0 * 0.001) ∧
    ¬ ContinuousAt (fun vs => Drag.clean np ac pol false mass 0 alt vs dT) 0 := by
  have hq : Drag.qS ac 0 alt dT = 0.001 := by
    unfold Drag.qS; norm_num
  have hc : ∀ vs, Drag.clean np ac pol false mass 0 alt vs dT =
      pol.cd0 * 0.001 + pol.k * Drag.lift mass 0 vs ^ 2 / 0.001 := by
    intro vs
    have : Drag.clean np ac pol false mass 0 alt vs dT =
      Drag.calcDrag np ac mass 0 alt (pol.cd0 + 0.0) pol.k vs dT := rfl
    rw [this, Drag.calcDrag_eq, hq]; norm_num
  have h0 : Drag.clean np ac pol false mass 0 alt 0 dT =
      pol.cd0 * 0.001 + pol.k * (mass * 9.80665) ^ 2 / 0.001 := by
    rw [hc, Drag.lift_level_sq]
  have h1 : ∀ vs, vs ≠ 0 → Drag.clean np ac pol false mass 0 alt vs dT = pol.cd0 * 0.001 := by
    intro vs hv
    have : Drag.lift mass 0 vs = 0 := by
      unfold Drag.lift
      rw [Drag.cos_atan2_eq _ _ (Or.inr (mul_ne_zero hv (by norm_num)))]
      simp
    rw [hc, this]; norm_num
  refine ⟨h0, h1, fun hcont => ?_⟩
  have t1 := hcont.tendsto.mono_left (nhdsWithin_le_nhds (s := {0}ᶜ))
  have t2 : Filter.Tendsto (fun vs => Drag.clean np ac pol false mass 0 alt vs dT)
      (nhdsWithin 0 {0}ᶜ) (nhds (pol.cd0 * 0.001)) :=
    tendsto_const_nhds.congr' (by
      filter_upwards [self_mem_nhdsWithin] with vs hv using (h1 vs hv).symm)
  have := tendsto_nhds_unique t1 t2
  rw [h0] at this
  have h2 : pol.k * (mass * 9.80665) ^ 2 / 0.001 = 0 := by linarith
  have h3 : pol.k * (mass * 9.80665) ^ 2 / 0.001 ≠ 0 := by positivity
  exact h3 h2

example : ¬ ContinuousAt (fun vs => Drag.clean np a320 a320polar false 60000 0 0 vs 0) 0 :=
  (C115_drag_at_rest a320 a320polar 60000 0 0 (by norm_num [a320polar]) (by norm_num)).2.2

/-- **C115.** Take-off and idle thrust are jointly continuous in speed, altitude and temperature
offset; climb and cruise thrust in speed, altitude, rate and offset wherever the altitude is not
30000 ft. -/
theorem C115_thrust (e : Thrust.Params ℝ) :
    (Continuous fun p : ℝ × ℝ × ℝ => Thrust.takeoff np e p.1 p.2.1 p.2.2) ∧
    (Continuous fun p : ℝ × ℝ × ℝ => Thrust.descentIdle np e p.1 p.2.1 p.2.2) ∧
    (0 < e.cruiseMach → e.cruiseThrust * e.number ≠ 0 →
      (ContinuousOn (fun p : ℝ × ℝ × ℝ × ℝ =>
        Thrust.climb np e p.1 p.2.1 p.2.2.1 p.2.2.2) {p | p.2.1 ≠ 30000}) ∧
      (ContinuousOn (fun p : ℝ × ℝ × ℝ => Thrust.cruise np e p.1 p.2.1 p.2.2)
        {p | p.2.1 ≠ 30000})) := by
  have ht : Continuous fun p : ℝ × ℝ × ℝ => Thrust.takeoff np e p.1 p.2.1 p.2.2 := by
    simp only [← continuousOn_univ]
    exact Cont.takeoffC e (by fun_prop) (by fun_prop) (by fun_prop)
  refine ⟨ht, continuous_const.mul ht, fun hM hF => ?_⟩
  have hc : ContinuousOn (fun p : ℝ × ℝ × ℝ × ℝ =>
        Thrust.climb np e p.1 p.2.1 p.2.2.1 p.2.2.2) {p | p.2.1 ≠ 30000} := by
    have h1 : ContinuousOn (fun p : ℝ × ℝ × ℝ × ℝ => p.1) Set.univ := by fun_prop
    have h2 : ContinuousOn (fun p : ℝ × ℝ × ℝ × ℝ => p.2.1) Set.univ := by fun_prop
    have h3 : ContinuousOn (fun p : ℝ × ℝ × ℝ × ℝ => p.2.2.1) Set.univ := by fun_prop
    have h4 : ContinuousOn (fun p : ℝ × ℝ × ℝ × ℝ => p.2.2.2) Set.univ := by fun_prop
    have s1 := (Cont.seg1C e hM h1 h2 h3 h4)
    have s2 := (Cont.seg2C e hM h1 h2 h3 h4)
    have s3 := (Cont.seg3C e hM h1 h2 h4)
    rw [continuousOn_univ] at s1 s2 s3
    have low : Continuous fun p : ℝ × ℝ × ℝ × ℝ =>
        (if p.2.1 ≤ 10000 then Thrust.seg1 e p.1 p.2.1 p.2.2.1 p.2.2.2
          else Thrust.seg2 e p.1 p.2.1 p.2.2.1 p.2.2.2) * (e.cruiseThrust * e.number) := by
      refine Continuous.mul ?_ continuous_const
      refine Continuous.if_le s1 s2 (by fun_prop) continuous_const ?_
      intro p hp
      rw [hp]; exact Thrust.seg1_eq_seg2 e _ _ _
    have hi : Continuous fun p : ℝ × ℝ × ℝ × ℝ =>
        Thrust.seg3 e p.1 p.2.1 p.2.2.2 * (e.cruiseThrust * e.number) := s3.mul continuous_const
    intro p hp
    refine ContinuousAt.continuousWithinAt ?_
    rcases lt_or_gt_of_ne (show p.2.1 ≠ 30000 from hp) with h | h
    · refine low.continuousAt.congr ?_
      have : {q : ℝ × ℝ × ℝ × ℝ | q.2.1 < 30000} ∈ nhds p :=
        (isOpen_lt (by fun_prop) continuous_const).mem_nhds h
      filter_upwards [this] with q hq
      rw [Thrust.climb_eq e hF, if_neg (not_lt.2 (le_of_lt hq))]
      congr 1
      by_cases h10 : q.2.1 ≤ 10000
      · rw [if_pos h10, if_neg (not_lt.2 h10)]
      · rw [if_neg h10, if_pos (not_le.1 h10)]
    · refine hi.continuousAt.congr ?_
      have : {q : ℝ × ℝ × ℝ × ℝ | 30000 < q.2.1} ∈ nhds p :=
        (isOpen_lt continuous_const (by fun_prop)).mem_nhds h
      filter_upwards [this] with q hq
      rw [Thrust.climb_eq e hF, if_pos hq]
  refine ⟨hc, ?_⟩
  exact hc.comp (f := fun p : ℝ × ℝ × ℝ => (p.1, p.2.1, (0.0 : ℝ), p.2.2))
    (by fun_prop) fun p hp => hp

example : ContinuousAt (fun p : ℝ × ℝ × ℝ × ℝ =>
    Thrust.climb np a320thrust p.1 p.2.1 p.2.2.1 p.2.2.2) (300, 10000, 1500, 0) :=
  ((C115_thrust a320thrust).2.2 (by norm_num [a320thrust]) (by norm_num [a320thrust])).1.continuousAt
    ((isOpen_ne_fun (by fun_prop) continuous_const).mem_nhds (by norm_num))

/-- **C115.** Fuel flow is continuous in thrust; in flight it is jointly continuous in mass,
speed, altitude, vertical rate, acceleration and temperature offset wherever the airspeed is not
zero; at take-off in speed, altitude and throttle. No hypothesis on the coefficients. -/
theorem C115_fuel (f : Fuel.Params ℝ) (ac : Drag.Airframe ℝ) (pol : Drag.Polar ℝ)
    (e : Thrust.Params ℝ) (wave lim : Bool) :
    Continuous (Fuel.atThrust np f) ∧
    (Continuous fun p : ℝ × ℝ × ℝ => Fuel.takeoff np f e p.1 p.2.1 p.2.2) ∧
    (ContinuousOn (fun p : ℝ × ℝ × ℝ × ℝ × ℝ × ℝ =>
      Fuel.enroute np f ac pol wave p.1 p.2.1 p.2.2.1 p.2.2.2.1 p.2.2.2.2.1 p.2.2.2.2.2 lim)
      {p | p.2.1 ≠ 0}) := by
  refine ⟨Cont.atThrustC f, ?_, ?_⟩
  · have : Continuous fun p : ℝ × ℝ × ℝ => Thrust.takeoff np e p.1 p.2.1 0.0 := by
      simp only [← continuousOn_univ]
      exact Cont.takeoffC e (by fun_prop) (by fun_prop) (by fun_prop)
    exact (by fun_prop : Continuous fun p : ℝ × ℝ × ℝ => p.2.2).mul ((Cont.atThrustC f).comp this)
  · exact Cont.enrouteC f ac pol wave lim (by fun_prop) (by fun_prop) (by fun_prop) (by fun_prop)
      (by fun_prop) (by fun_prop) fun p hp => Or.inl hp

/-- **C115.** Emission flows of NOx, CO and HC are jointly continuous in fuel flow, speed,
altitude and temperature offset below 145442 ft, for tables with increasing fuel flows. -/
theorem C115_emission (e : Emission.Params ℝ) (hff : StrictMono e.ff) :
    ∀ f ∈ [Emission.nox np e, Emission.co np e, Emission.hc np e],
      ContinuousOn (fun p : ℝ × ℝ × ℝ × ℝ => f p.1 p.2.1 p.2.2.1 p.2.2.2)
        {p | p.2.2.1 < 145442} := by
  have h1 : ContinuousOn (fun p : ℝ × ℝ × ℝ × ℝ => p.1) {p | p.2.2.1 < 145442} := by fun_prop
  have h3 : ContinuousOn (fun p : ℝ × ℝ × ℝ × ℝ => p.2.2.1) {p | p.2.2.1 < 145442} := by
    fun_prop
  obtain ⟨s1, s2, s0⟩ := Cont.fl2slC e h1
    (by fun_prop : ContinuousOn (fun p : ℝ × ℝ × ℝ × ℝ => p.2.1) {p | p.2.2.1 < 145442}) h3
    (by fun_prop : ContinuousOn (fun p : ℝ × ℝ × ℝ × ℝ => p.2.2.2) {p | p.2.2.1 < 145442})
    (fun p hp => hp)
  simp only [List.mem_cons, List.not_mem_nil, or_false, forall_eq_or_imp, forall_eq]
  refine ⟨?_, ?_, ?_⟩
  · refine ContinuousOn.mul (((((Cont.ltoC e e.nox hff).comp_continuousOn s1).mul
      (ContinuousOn.sqrt (continuousOn_const.div s2 fun p hp => (s0 p hp).ne'))).mul
      (continuous_exp.comp_continuousOn ?_))) h1
    exact continuousOn_const.mul ((continuousOn_const.mul (continuous_exp.comp_continuousOn
      (continuousOn_const.mul (h3.sub continuousOn_const)))).sub continuousOn_const)
  · exact (((Cont.ltoC e e.co hff).comp_continuousOn s1).mul s2).mul h1
  · exact (((Cont.ltoC e e.hc hff).comp_continuousOn s1).mul s2).mul h1

end Verif.Props
