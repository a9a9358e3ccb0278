import Verif.Props.MinDrag
import Verif.Props.Continuity

/-!
# C127: laws of flight at one equivalent airspeed, and fuel per distance
-/

namespace Verif.Props
open Verif.Aero Verif.Drag Verif.Spec Real

theorem atan2_scale {c : ℝ} (hc : 0 < c) (y x : ℝ) : atan2R (c * y) (c * x) = atan2R y x := by
  unfold atan2R
  rw [← Complex.arg_real_mul ⟨x, y⟩ hc]
  congr 1
  apply Complex.ext <;> simp

/-- Same equivalent airspeed and same flight-path angle: same angle and dynamic pressure. -/
theorem same_eas {t1 t2 h1 h2 d1 d2 w1 w2 : ℝ} (p1 : 0 < t1) (p2 : 0 < t2)
    (he : tas2eas np (t1 * 0.514444) (h1 * 0.3048) d1 = tas2eas np (t2 * 0.514444) (h2 * 0.3048) d2)
    (hw : w1 / t1 = w2 / t2) :
    (∀ ac : Airframe ℝ, qS ac t1 h1 d1 = qS ac t2 h2 d2) ∧
    atan2R (w1 * 0.00508) (t1 * 0.514444) = atan2R (w2 * 0.00508) (t2 * 0.514444) := by
  constructor
  · intro ac
    have r1 := density_pos (h1 * 0.3048) d1
    have r2 := density_pos (h2 * 0.3048) d2
    change t1 * 0.514444 * sqrt (density np (h1 * 0.3048) d1 / 1.225) =
      t2 * 0.514444 * sqrt (density np (h2 * 0.3048) d2 / 1.225) at he
    have := congrArg (· ^ 2) he
    simp only [mul_pow] at this
    rw [sq_sqrt (by positivity), sq_sqrt (by positivity)] at this
    unfold qS
    congr 1
    have e : (t1 * 0.514444) ^ 2 * density np (h1 * 0.3048) d1 =
        (t2 * 0.514444) ^ 2 * density np (h2 * 0.3048) d2 := by
      linear_combination 1.225 * this
    linear_combination (0.5 * ac.area) * e
  · have hc : 0 < t2 / t1 := by positivity
    rw [← atan2_scale hc (w1 * 0.00508) (t1 * 0.514444)]
    congr 1
    · field_simp at hw ⊢; linarith
    · field_simp

/-- **C127 (one equivalent airspeed).** At the same equivalent airspeed and the same ratio of
vertical rate to airspeed, drag without wave drag, drag with flaps and gear, and the fuel flow at
equal acceleration are the same at every altitude and temperature; so are they when only the
temperature changes at constant equivalent airspeed. -/
theorem C127_same_eas (f : Fuel.Params ℝ) (ac : Airframe ℝ) (pol : Polar ℝ)
    {t1 t2 h1 h2 d1 d2 w1 w2 : ℝ} (p1 : 0 < t1) (p2 : 0 < t2)
    (he : tas2eas np (t1 * 0.514444) (h1 * 0.3048) d1 = tas2eas np (t2 * 0.514444) (h2 * 0.3048) d2)
    (hw : w1 / t1 = w2 / t2) (mass : ℝ) :
    clean np ac pol false mass t1 h1 w1 d1 = clean np ac pol false mass t2 h2 w2 d2 ∧
    (∀ flap gear, nonclean np ac pol mass t1 h1 flap w1 d1 gear =
      nonclean np ac pol mass t2 h2 flap w2 d2 gear) ∧
    (∀ acc limit, Fuel.enroute np f ac pol false mass t1 h1 w1 acc d1 limit =
      Fuel.enroute np f ac pol false mass t2 h2 w2 acc d2 limit) := by
  obtain ⟨hq, hg⟩ := same_eas p1 p2 he hw
  have key : ∀ cd0 k, calcDrag np ac mass t1 h1 cd0 k w1 d1 =
      calcDrag np ac mass t2 h2 cd0 k w2 d2 := by
    intro cd0 k
    rw [calcDrag_eq, calcDrag_eq, hq ac]
    unfold lift
    rw [hg]
  have hc : clean np ac pol false mass t1 h1 w1 d1 = clean np ac pol false mass t2 h2 w2 d2 :=
    key _ _
  refine ⟨hc, fun flap gear => key _ _, fun acc limit => ?_⟩
  show Fuel.atThrust np f (Fuel.enrouteThrust np ac pol false mass t1 h1 w1 acc d1) =
    Fuel.atThrust np f (Fuel.enrouteThrust np ac pol false mass t2 h2 w2 acc d2)
  rw [Fuel.enrouteThrust_eq, Fuel.enrouteThrust_eq, hc, hg]

/-- **C127 (higher is further).** So in level flight at a constant equivalent airspeed the fuel
burnt per distance strictly falls with altitude. -/
theorem C127_higher_is_further (f : Fuel.Params ℝ) (hf : Fuel.Ok f) (ac : Airframe ℝ)
    (pol : Polar ℝ) {t1 t2 h1 h2 dT : ℝ} (p1 : 0 < t1) (p2 : 0 < t2) (hh : h1 < h2)
    (he : tas2eas np (t1 * 0.514444) (h1 * 0.3048) dT = tas2eas np (t2 * 0.514444) (h2 * 0.3048) dT)
    (mass : ℝ) (limit : Bool) :
    Fuel.enroute np f ac pol false mass t2 h2 0 0 dT limit / t2 <
      Fuel.enroute np f ac pol false mass t1 h1 0 0 dT limit / t1 := by
  rw [← (C127_same_eas f ac pol p1 p2 he (w1 := 0) (w2 := 0) (by simp) mass).2.2 0 limit]
  have hpos : 0 < Fuel.enroute np f ac pol false mass t1 h1 0 0 dT limit :=
    (C28_fuel_bounded f hf.scale hf.c1 hf.c2 hf.num _).1
  refine div_lt_div_of_pos_left hpos p1 ?_
  have r2 := density_pos (h2 * 0.3048) dT
  have hlt : density np (h2 * 0.3048) dT < density np (h1 * 0.3048) dT :=
    (C02_atmos_decreasing dT).2.1 (by linarith)
  change t1 * 0.514444 * sqrt (density np (h1 * 0.3048) dT / 1.225) =
      t2 * 0.514444 * sqrt (density np (h2 * 0.3048) dT / 1.225) at he
  have hs : sqrt (density np (h2 * 0.3048) dT / 1.225) < sqrt (density np (h1 * 0.3048) dT / 1.225) :=
    sqrt_lt_sqrt (by positivity) (by gcongr)
  by_contra h
  push Not at h
  have s2 : 0 < sqrt (density np (h2 * 0.3048) dT / 1.225) := sqrt_pos.2 (by positivity)
  nlinarith

/-- **C127 (scaling).** An aircraft `c` times as heavy at `√c` times the airspeed and vertical
rate has `c` times the drag and needs `c` times the thrust at the same acceleration, as long as
dynamic pressure times wing area is at least the lower bound of 0.001 N both times. -/
theorem C127_scaling (ac : Airframe ℝ) (pol : Polar ℝ)
    (mass tas alt vs dT c : ℝ) (hc : 0 < c)
    (hq : 0.001 ≤ 0.5 * density np (alt * 0.3048) dT * (tas * 0.514444) ^ 2 * ac.area)
    (hq' : 0.001 ≤ 0.5 * density np (alt * 0.3048) dT * (sqrt c * tas * 0.514444) ^ 2 * ac.area) :
    clean np ac pol false (c * mass) (sqrt c * tas) alt (sqrt c * vs) dT =
      c * clean np ac pol false mass tas alt vs dT ∧
    (∀ flap gear, nonclean np ac pol (c * mass) (sqrt c * tas) alt flap (sqrt c * vs) dT gear =
      c * nonclean np ac pol mass tas alt flap vs dT gear) ∧
    (∀ acc, Fuel.enrouteThrust np ac pol false (c * mass) (sqrt c * tas) alt (sqrt c * vs) acc dT =
      c * Fuel.enrouteThrust np ac pol false mass tas alt vs acc dT) := by
  have hs : 0 < sqrt c := sqrt_pos.2 hc
  have hg : atan2R (sqrt c * vs * 0.00508) (sqrt c * tas * 0.514444) =
      atan2R (vs * 0.00508) (tas * 0.514444) := by
    rw [mul_assoc, mul_assoc]; exact atan2_scale hs _ _
  have hqq : qS ac (sqrt c * tas) alt dT = c * qS ac tas alt dT := by
    unfold qS
    rw [max_eq_left (by norm_num at hq' ⊢; exact hq'), max_eq_left (by norm_num at hq ⊢; exact hq)]
    have : (sqrt c * tas * 0.514444) ^ 2 = c * (tas * 0.514444) ^ 2 := by
      rw [mul_assoc, mul_pow, sq_sqrt hc.le]
    rw [this]; ring
  have hp := qS_pos ac tas alt dT
  have key : ∀ cd0 k, calcDrag np ac (c * mass) (sqrt c * tas) alt cd0 k (sqrt c * vs) dT =
      c * calcDrag np ac mass tas alt cd0 k vs dT := by
    intro cd0 k
    rw [calcDrag_eq, calcDrag_eq, hqq]
    unfold lift
    rw [hg]
    field_simp
  have hcl : clean np ac pol false (c * mass) (sqrt c * tas) alt (sqrt c * vs) dT =
      c * clean np ac pol false mass tas alt vs dT := key _ _
  refine ⟨hcl, fun flap gear => key _ _, fun acc => ?_⟩
  rw [Fuel.enrouteThrust_eq, Fuel.enrouteThrust_eq, hcl, hg]
  ring

/-- An A320 of 66 t and one of 16.5 t at half the speed. -/
example : clean np a320 a320polar false 66000 200 0 1000 0 =
    4 * clean np a320 a320polar false 16500 100 0 500 0 := by
  have r : density np (0 * 0.3048) 0 = 1.225 := by
    rw [density_eq]
    unfold Spec.isaTemp Spec.shift
    norm_num
  have h4 : sqrt 4 = 2 := by
    rw [show (4 : ℝ) = 2 ^ 2 by norm_num]; exact sqrt_sq (by norm_num)
  have := (C127_scaling a320 a320polar 16500 100 0 500 0 4 (by norm_num)
    (by rw [r]; norm_num [a320]) (by rw [r, h4]; norm_num [a320])).1
  rw [h4] at this
  norm_num at this ⊢
  exact this

/-- **C127 (slow flight).** Below the speed of least drag, flying faster burns less fuel per
distance (level flight, no wave drag). -/
theorem C127_below_min_drag (f : Fuel.Params ℝ) (hf : Fuel.Ok f) (ac : Airframe ℝ) (pol : Polar ℝ)
    (h0 : 0 < pol.cd0) (hk : 0 < pol.k) (hS : 0 < ac.area) (mass alt dT : ℝ) (hm : 0 < mass)
    (hq : 0.001 ≤ mass * 9.80665 * sqrt (pol.k / pol.cd0)) (limit : Bool) (t1 t2 : ℝ)
    (h1 : 0 < t1) (h12 : t1 < t2) (h2 : t2 * 0.514444 ≤
      minDragSpeed (density np (alt * 0.3048) dT) ac.area pol.cd0 pol.k (mass * 9.80665)) :
    Fuel.enroute np f ac pol false mass t2 alt 0 0 dT limit / t2 <
      Fuel.enroute np f ac pol false mass t1 alt 0 0 dT limit / t1 := by
  have hd := (C120_min_drag ac pol h0 hk hS mass alt dT hm hq).2.2.1 t1 t2 h1.le h12.le h2
  have hp := (C24_drag_positive ac pol h0 hk mass t2 alt dT hm).2.1 false 0
  have hpos : 0 < Fuel.atThrust np f (clean np ac pol false mass t2 alt 0 dT) :=
    (C28_fuel_bounded f hf.scale hf.c1 hf.c2 hf.num _).1
  rw [level_fuel _ _ _ _ _ _ _ h1.le, level_fuel _ _ _ _ _ _ _ (h1.trans h12).le]
  have hle : Fuel.atThrust np f (clean np ac pol false mass t2 alt 0 dT) ≤
      Fuel.atThrust np f (clean np ac pol false mass t1 alt 0 dT) := by
    rcases hd.eq_or_lt with e | h
    · rw [e]
    · refine (C29_fuel_increasing f hf.scale hf.c1 hf.c2 hf.c3 hf.max hf.num _ _ ?_ h).le
      have := mul_pos hf.num hf.max
      linarith
  exact (div_lt_div_of_pos_left hpos h1 h12).trans_le (by gcongr)

/-- At the same equivalent airspeed an A320 goes further on its fuel at 35000 ft than at 20000 ft. -/
example (t : ℝ) (ht : 0 < t) (he : tas2eas np (400 * 0.514444) (20000 * 0.3048) 0 =
    tas2eas np (t * 0.514444) (35000 * 0.3048) 0) :
    Fuel.enroute np a318fuel a320 a320polar false 66000 t 35000 0 0 0 true / t <
      Fuel.enroute np a318fuel a320 a320polar false 66000 400 20000 0 0 0 true / 400 :=
  C127_higher_is_further a318fuel a318fuel_ok a320 a320polar (by norm_num) ht (by norm_num) he 66000
    true

/-- **C127 (no best speed).** The fuel flow is bounded whatever the speed, so fuel per distance
tends to zero with increasing airspeed: every speed is beaten by some higher speed, and a speed of
least fuel per distance exists only within a speed range. This holds with wave drag too, and for
any vertical rate and acceleration. -/
theorem C127_no_best_speed (f : Fuel.Params ℝ) (hs : 0 < f.scale) (h1 : 0 < f.c1) (h2 : 0 < f.c2)
    (hn : 0 < f.number) (ac : Airframe ℝ) (pol : Polar ℝ) (wave : Bool) (mass alt vs acc dT : ℝ)
    (limit : Bool) :
    (∀ ε, 0 < ε → ∃ t, ∀ tas, t < tas → 0 < tas →
      Fuel.enroute np f ac pol wave mass tas alt vs acc dT limit / tas < ε) ∧
    (∀ t, 0 < t → ∃ tas, t < tas ∧
      Fuel.enroute np f ac pol wave mass tas alt vs acc dT limit / tas <
        Fuel.enroute np f ac pol wave mass t alt vs acc dT limit / t) ∧
    (∀ lo hi, 0 < lo → lo ≤ hi → ∃ best, lo ≤ best ∧ best ≤ hi ∧ ∀ tas, lo ≤ tas → tas ≤ hi →
      Fuel.enroute np f ac pol wave mass best alt vs acc dT limit / best ≤
        Fuel.enroute np f ac pol wave mass tas alt vs acc dT limit / tas) := by
  have hb : ∀ tas, 0 < Fuel.enroute np f ac pol wave mass tas alt vs acc dT limit ∧
      Fuel.enroute np f ac pol wave mass tas alt vs acc dT limit < f.number * f.scale * f.c1 :=
    fun tas => C28_fuel_bounded f hs h1 h2 hn _
  have hB : 0 < f.number * f.scale * f.c1 := by positivity
  have small : ∀ ε, 0 < ε → ∃ t, ∀ tas, t < tas → 0 < tas →
      Fuel.enroute np f ac pol wave mass tas alt vs acc dT limit / tas < ε := by
    intro ε hε
    refine ⟨f.number * f.scale * f.c1 / ε, fun tas ht hp => ?_⟩
    rw [div_lt_iff₀ hε] at ht
    rw [div_lt_iff₀ hp]
    have := (hb tas).2
    linarith [mul_comm tas ε]
  refine ⟨small, fun t ht => ?_, fun lo hi hlo hlh => ?_⟩
  · obtain ⟨T, hT⟩ := small _ (div_pos (hb t).1 ht)
    exact ⟨max T t + 1, by linarith [le_max_right T t],
      hT _ (by linarith [le_max_left T t]) (by linarith [le_max_right T t])⟩
  · have hcont : ContinuousOn (fun tas =>
        Fuel.enroute np f ac pol wave mass tas alt vs acc dT limit / tas) (Set.Icc lo hi) := by
      have h := Cont.enrouteC f ac pol wave limit (s := Set.Icc lo hi)
        (m := fun _ : ℝ => mass) (t := fun x : ℝ => x) (a := fun _ => alt) (w := fun _ => vs)
        (c := fun _ => acc) (d := fun _ => dT) (by fun_prop) (by fun_prop) (by fun_prop)
        (by fun_prop) (by fun_prop) (by fun_prop) fun x hx => Or.inl (hlo.trans_le hx.1).ne'
      exact h.div continuousOn_id fun x hx => (hlo.trans_le hx.1).ne'
    obtain ⟨best, hbest, hmin⟩ := isCompact_Icc.exists_isMinOn ⟨lo, le_refl lo, hlh⟩ hcont
    exact ⟨best, hbest.1, hbest.2, fun tas h1 h2 => hmin ⟨h1, h2⟩⟩

end Verif.Props
