import Verif.Lemmas.EnvelopeRows
import Verif.Lemmas.GenShipped
import Verif.Lemmas.Interval

/-!
# The constants of the shipped tables against the limits of the aircraft

Crossover altitudes are enclosed by interval arithmetic.
-/

namespace Verif.Gen
open Verif Verif.Aero Verif.Tables Verif.Kinematic Verif.Registry Verif.Comp
open Verif.Interval (Iv Has rat)
open Verif.Data (shipped)

/-- `(1 + u) ^ 3.5 - 1`. -/
def iF (u : Iv) : Iv :=
  Interval.sub (Interval.exp (Interval.mul (rat 7 2) (Interval.log (Interval.add (rat 1 1) u)))) (rat 1 1)

/-- The pressure ratio of `crossover_alt` at `h` tenths of a metre, times the impact pressure ratio
of the Mach number `m / 10 ^ 4`, less the impact pressure ratio of the calibrated airspeed
`c / 10 ^ 4`. -/
def iGap (c m h : ℤ) : Iv :=
  Interval.sub
    (Interval.mul
      (Interval.exp (Interval.mul (rat 980665000000 186584365500)
        (Interval.log (rat (288150000 - 650 * h) 288150000))))
      (iF (Interval.mul (rat 1 5) (Interval.mul (rat m 10000) (rat m 10000)))))
    (iF (Interval.mul (rat 1 5)
      (Interval.mul (rat (100 * c) 340293988) (rat (100 * c) 340293988))))

/-- The crossover altitude is between `lo` and `hi` tenths of a metre. -/
def crossIn (c m lo hi : ℤ) : Bool :=
  Interval.above 0 1 (iGap c m lo) && Interval.below 0 1 (iGap c m hi)

/-- The entry of a variable that is there. -/
def look (w : List WrapRow) (v : Str) : WrapRow :=
  match getVar w v with
  | .ok r => r
  | .error _ => ⟨[], 0, 0, 0⟩

/-- What the schedules of a table need, apart from the bounds of `tableOk`. -/
def scheduleOk (w : List WrapRow) : Bool :=
  let c := (look w climbConstVcas).opt
  let m := (look w climbConstMach).opt
  let d := (look w descentConstVcas).opt
  let n := (look w descentConstMach).opt
  let k := (look w cruiseMach).opt
  let x := (look w climbCrossAltConcas).opt
  let top := min 110000 ((look w cruiseAlt).opt - 153)
  crossIn c m x top && crossIn c k x top && crossIn d n 0 top && crossIn d k 0 top &&
  decide ((look w takeoffAcceleration).opt ≤ 25000 ∧ (look w takeoffSpeed).opt ≤ c ∧
    (look w landingAcceleration).opt ≤ -2000 ∧
    -(look w descentVsConmach).opt ≤ 80000 ∧ -(look w descentVsConcas).opt ≤ 115000 ∧
    -(look w descentVsPostConcas).opt ≤ 115000 ∧ -(look w finalappVs).opt ≤ 115000 ∧
    n ≤ 9000 ∧ k ≤ 9000 ∧
    (look w initclimbVs).opt ≤ 150000 ∧ (look w climbVsPreConcas).opt ≤ 150000 ∧
    (look w climbVsConcas).opt ≤ 150000 ∧ (look w climbVsConmach).opt ≤ 150000)

/-- The constants of a table are within the limits of an aircraft. -/
def limitsOk (a : AircraftRow) (w : List WrapRow) : Bool :=
  let c := (look w climbConstVcas).opt
  let m := (look w climbConstMach).opt
  let d := (look w descentConstVcas).opt
  let n := (look w descentConstMach).opt
  let k := (look w cruiseMach).opt
  (match a.mmo with
   | some l => decide (10002 * m * 10 ^ 8 ≤ l ∧ 10002 * n * 10 ^ 8 ≤ l ∧ 10002 * k * 10 ^ 8 ≤ l)
   | none => true) &&
  (match a.vmo with
   | some l => decide (100001 * c * 10 ^ 13 ≤ l * 514444 ∧ 100001 * d * 10 ^ 13 ≤ l * 514444)
   | none => true) &&
  (match a.ceiling with
   | some l => decide (((look w cruiseAlt).opt + 153 + 1500) * 10 ^ 15 ≤ l)
   | none => true)

/-- The small business jets that fly on the tables of another aircraft. -/
def smallJets : List Str := ["c550", "c25a", "c525", "c56x", "pc24"].map (·.toList.map Char.toNat)

theorem shipped_schedules : shipped.wrap.all (fun e => scheduleOk e.2) = true := by
  decide +kernel

theorem shipped_limits : (availableAircraft shipped true).all (fun ac =>
    match Gen.init shipped ac () true, Registry.aircraft shipped ac true with
    | .ok f, .ok a => (decide (ac ∈ smallJets) || limitsOk a f.wrap) &&
        shipped.wrap.any (fun e => e.2 == f.wrap)
    | _, _ => false) = true := by
  decide +kernel

/-! ## Crossover altitudes -/

theorem has_iF {u : Iv} {x : ℝ} (h : Has u x) (hx : 0 ≤ x) : Has (iF u) (F x) := by
  have := ((Interval.has_rat 7 2).mul (Interval.has_one.add h).log).exp.sub Interval.has_one
  refine cast (congrArg _ ?_) this
  unfold F
  rw [Real.rpow_def_of_pos (by linarith)]
  norm_num
  ring_nf

theorem has_iGap {c m h : ℤ} (hh : h < 400000) : Has (iGap c m h)
    (((288.15 - 0.0065 * (h / 10 : ℝ)) / 288.15) ^ (1 / aExp) * F (0.2 * wreal m ^ 2) -
      F (0.2 * (wreal c / 340.293988) ^ 2)) := by
  have e1 : Has (rat m 10000) (wreal m) := by
    refine cast (congrArg _ ?_) (Interval.has_rat m 10000)
    unfold wreal
    norm_num
  have e2 : Has (rat (100 * c) 340293988) (wreal c / 340.293988) := by
    refine cast (congrArg _ ?_) (Interval.has_rat (100 * c) 340293988)
    unfold wreal
    push_cast
    ring
  have e5 : Has (rat 1 5) 0.2 := by
    refine cast (congrArg _ ?_) (Interval.has_rat 1 5)
    norm_num
  have f1 := has_iF (e5.mul (e1.mul e1)) (mul_nonneg (by norm_num) (mul_self_nonneg _))
  have f2 := has_iF (e5.mul (e2.mul e2)) (mul_nonneg (by norm_num) (mul_self_nonneg _))
  have hh' : (h : ℝ) < 400000 := by exact_mod_cast hh
  have hx : 0 < (288.15 - 0.0065 * (h / 10 : ℝ)) / 288.15 := by
    apply div_pos _ (by norm_num); linarith
  have e3 : Has (rat (288150000 - 650 * h) 288150000)
      ((288.15 - 0.0065 * (h / 10 : ℝ)) / 288.15) := by
    refine cast (congrArg _ ?_) (Interval.has_rat (288150000 - 650 * h) 288150000)
    push_cast
    ring
  have e4 : Has (rat 980665000000 186584365500) (1 / aExp) := by
    refine cast (congrArg _ ?_) (Interval.has_rat 980665000000 186584365500)
    unfold aExp
    norm_num
  have := ((e4.mul e3.log).exp.mul f1).sub f2
  refine cast (congrArg _ ?_) this
  rw [Real.rpow_def_of_pos hx, pow_two, pow_two, mul_comm (1 / aExp)]

theorem cross_of_gap {c m : ℝ} (hc : 0 < c) (hm : 1e-4 ≤ m) {h : ℝ} (hh : h < 40000) :
    (0 < ((288.15 - 0.0065 * h) / 288.15) ^ (1 / aExp) * F (0.2 * m ^ 2) -
      F (0.2 * (c / 340.293988) ^ 2) → h < crossoverAlt np c m 0) ∧
    (((288.15 - 0.0065 * h) / 288.15) ^ (1 / aExp) * F (0.2 * m ^ 2) -
      F (0.2 * (c / 340.293988) ^ 2) < 0 → crossoverAlt np c m 0 < h) := by
  have hm0 : 0 < m := lt_of_lt_of_le (by norm_num) hm
  have hF := F_pos (u := 0.2 * m ^ 2) (by positivity)
  have ha := aExp_pos
  have hd := crossDelta_pos hc hm0
  have hx : 0 < (288.15 - 0.0065 * h) / 288.15 := by
    apply div_pos _ (by norm_num); linarith
  obtain ⟨x, ex⟩ : ∃ x, x = (288.15 - 0.0065 * h) / 288.15 := ⟨_, rfl⟩
  have eh : h = (288.15 + 0) / 0.0065 * (1 - x) := by rw [ex]; field_simp; ring
  rw [crossover_eq 0 hm, ← ex]
  rw [← ex] at hx
  have back : (x ^ (1 / aExp)) ^ aExp = x := by
    rw [← Real.rpow_mul hx.le, one_div_mul_cancel ha.ne', Real.rpow_one]
  have ed : F (0.2 * (c / 340.293988) ^ 2) = crossDelta c m * F (0.2 * m ^ 2) := by
    unfold crossDelta; field_simp
  rw [ed, ← sub_mul]
  constructor
  · intro hg
    have : crossDelta c m < x ^ (1 / aExp) := by
      by_contra hn
      have := mul_nonpos_of_nonpos_of_nonneg (sub_nonpos.2 (not_lt.1 hn)) hF.le
      linarith
    have h2 := Real.rpow_lt_rpow hd.le this ha
    rw [back] at h2
    rw [eh]
    gcongr
  · intro hg
    have : x ^ (1 / aExp) < crossDelta c m := by
      by_contra hn
      have := mul_nonneg (sub_nonneg.2 (not_lt.1 hn)) hF.le
      linarith
    have h2 := Real.rpow_lt_rpow (by positivity) this ha
    rw [back] at h2
    rw [eh]
    gcongr

theorem cross_of {c m lo hi : ℤ} (hc : 0 < c) (hm : 1 ≤ m) (h1 : lo < 400000) (h2 : hi < 400000)
    (h : crossIn c m lo hi = true) : (lo / 10 : ℝ) < crossoverAlt np (wreal c) (wreal m) 0 ∧
      crossoverAlt np (wreal c) (wreal m) 0 < (hi / 10 : ℝ) := by
  simp only [crossIn, Bool.and_eq_true] at h
  have c0 : 0 < wreal c := by
    unfold wreal
    have : (0:ℝ) < c := by exact_mod_cast hc
    positivity
  have m0 : 1e-4 ≤ wreal m := by
    have := wreal_ge hm
    norm_num at this ⊢
    exact this
  have a := Interval.of_above h.1 (has_iGap h1)
  have b := Interval.of_below h.2 (has_iGap h2)
  have l1 : (lo / 10 : ℝ) < 40000 := by
    have : (lo:ℝ) < 400000 := by exact_mod_cast h1
    linarith
  have l2 : (hi / 10 : ℝ) < 40000 := by
    have : (hi:ℝ) < 400000 := by exact_mod_cast h2
    linarith
  refine ⟨(cross_of_gap c0 m0 l1).1 ?_, (cross_of_gap c0 m0 l2).2 ?_⟩
  · simpa using a
  · simpa using b

/-! ## Default constants -/

theorem look_eq {w : List WrapRow} {v : Str} {r : WrapRow} (h : getVar w v = .ok r) :
    look w v = r := by
  unfold look
  rw [h]

theorem round_round (x : ℝ) : roundHundreds (roundHundreds x) = roundHundreds x := by
  obtain ⟨k, hk⟩ := round_multiple x
  rw [hk]
  unfold roundHundreds
  have e : (100 * (k:ℝ)) / 100 = k := by field_simp
  simp only [e, Int.floor_intCast, sub_self]
  norm_num

section
variable {G : Type} {R : Rng G}

/-- The constants of a climb without random parameters and without a CAS. -/
theorem climb_default {f : FlightGen G} (hw : tableOk f.wrap = true) {kw : Kw} {P : ClimbParams}
    {g : G} (hr : kw.random.getD false = false) (hc : kw.casCl = none)
    (hs : climbSetup R f kw = .ok (P, g)) :
    P.dt = kw.dt.getD 1 ∧ P.aTof = wreal (look f.wrap takeoffAcceleration).opt ∧
    P.vTof = wreal (look f.wrap takeoffSpeed).opt ∧
    P.vcas = max (wreal (look f.wrap climbConstVcas).opt / kts)
      (wreal (look f.wrap takeoffSpeed).opt / kts) * kts ∧
    P.mach = kw.machCl.getD (wreal (look f.wrap climbConstMach).opt) ∧
    P.hCr = roundHundreds (kw.altCr.getD (wreal (look f.wrap cruiseAlt).opt * 1000 / ft)) * ft ∧
    P.vsIc = wreal (look f.wrap initclimbVs).opt ∧
    P.vsPre = wreal (look f.wrap climbVsPreConcas).opt ∧
    P.vsCas = wreal (look f.wrap climbVsConcas).opt ∧
    P.vsMach = wreal (look f.wrap climbVsConmach).opt ∧
    P.hCas = wreal (look f.wrap climbCrossAltConcas).opt * 1000 ∧
    P.hMach = crossoverAlt np P.vcas P.mach 0 := by
  simp only [tableOk, Bool.and_eq_true, List.all_cons, List.all_nil, Bool.and_true] at hw
  obtain ⟨⟨⟨⟨⟨⟨⟨⟨⟨⟨⟨⟨x1, x2, x3, x4, x5⟩, x6⟩, y1⟩, y2⟩, z1, z2, z3⟩, y3⟩, y4⟩, y5⟩, y6⟩, y7⟩, y8⟩,
    v1, v2, v3, v4⟩ := hw
  obtain ⟨aTof, e1, -⟩ := entry_of x1
  obtain ⟨wPre, e2, -⟩ := entry_of x2
  obtain ⟨wCon, e3, -⟩ := entry_of x3
  obtain ⟨wCom, e4, -⟩ := entry_of x4
  obtain ⟨wIc, e5, -⟩ := entry_of x5
  obtain ⟨wCas, e6, -⟩ := entry_of y2
  obtain ⟨wMach, e7, -⟩ := entry_of z1
  obtain ⟨wAlt, e8, -⟩ := entry_of y3
  obtain ⟨vTof, e9, -⟩ := entry_of' y1
  obtain ⟨wX, e10, -⟩ := entry_of' y4
  unfold climbSetup at hs
  simp only [e1, e2, e3, e4, e5, e6, e7, e8, e9, e10, bind, Except.bind, pure, Except.pure, hc,
    Option.getD_none] at hs
  rw [if_neg (by simp [hr])] at hs
  simp only [Except.ok.injEq, Prod.mk.injEq] at hs
  rw [look_eq e1, look_eq e2, look_eq e3, look_eq e4, look_eq e5, look_eq e6, look_eq e7,
    look_eq e8, look_eq e9, look_eq e10, ← hs.1]
  exact ⟨rfl, rfl, rfl, rfl, rfl, rfl, rfl, rfl, rfl, rfl, rfl, rfl⟩

/-- The constants of a descent without random parameters and without a CAS. -/
theorem descent_default {f : FlightGen G} (hw : tableOk f.wrap = true) {kw : Kw}
    {P : DescentParams} {g : G} (hr : kw.random.getD false = false) (hc : kw.casDe = none)
    (hs : descentSetup R f kw = .ok (P, g)) :
    P.dt = kw.dt.getD 1 ∧ P.aLnd = wreal (look f.wrap landingAcceleration).opt ∧
    P.vApp = wreal (look f.wrap finalappVcas).opt ∧
    P.vcas = wreal (look f.wrap descentConstVcas).opt / kts * kts ∧
    P.mach = kw.machDe.getD (wreal (look f.wrap descentConstMach).opt) ∧
    P.hCr = roundHundreds (kw.altCr.getD (wreal (look f.wrap cruiseAlt).opt * 1000 / ft)) * ft ∧
    P.vsMach = wreal (look f.wrap descentVsConmach).opt ∧
    P.vsCas = wreal (look f.wrap descentVsConcas).opt ∧
    P.vsPost = wreal (look f.wrap descentVsPostConcas).opt ∧
    P.vsFa = wreal (look f.wrap finalappVs).opt ∧
    P.hMach = crossoverAlt np P.vcas P.mach 0 ∧ 0 ≤ P.hCas := by
  simp only [tableOk, Bool.and_eq_true, List.all_cons, List.all_nil, Bool.and_true] at hw
  obtain ⟨⟨⟨⟨⟨⟨⟨⟨⟨⟨⟨⟨x1, x2, x3, x4, x5⟩, x6⟩, y1⟩, y2⟩, z1, z2, z3⟩, y3⟩, y4⟩, y5⟩, y6⟩, y7⟩, y8⟩,
    v1, v2, v3, v4⟩ := hw
  obtain ⟨_, e1, -⟩ := entry_of' y8
  obtain ⟨_, e2, -⟩ := entry_of x6
  obtain ⟨_, e3, -⟩ := entry_of y3
  obtain ⟨_, e4, -⟩ := entry_of z2
  obtain ⟨_, e5, -⟩ := entry_of' y6
  obtain ⟨_, e6, -⟩ := entry_of v1
  obtain ⟨_, e7, -⟩ := entry_of v2
  obtain ⟨_, e8, -⟩ := entry_of v3
  obtain ⟨_, e9, -⟩ := entry_of v4
  obtain ⟨_, e10, p⟩ := entry_of' y7
  unfold descentSetup at hs
  simp only [e1, e2, e3, e4, e5, e6, e7, e8, e9, e10, bind, Except.bind, pure, Except.pure, hc,
    Option.getD_none] at hs
  rw [if_neg (by simp [hr])] at hs
  simp only [Except.ok.injEq, Prod.mk.injEq] at hs
  rw [look_eq e1, look_eq e2, look_eq e3, look_eq e4, look_eq e5, look_eq e6, look_eq e7,
    look_eq e8, look_eq e9, ← hs.1]
  refine ⟨rfl, rfl, rfl, rfl, rfl, rfl, rfl, rfl, rfl, rfl, rfl, ?_⟩
  have := wreal_le p.le
  unfold wreal at this ⊢
  norm_num at this ⊢
  linarith

/-- The constants of a cruise without random parameters. -/
theorem cruise_default {f : FlightGen G} (hw : tableOk f.wrap = true) {kw : Kw}
    {P : CruiseParams} {g : G} (hr : kw.random.getD false = false)
    (hs : cruiseSetup R f kw = .ok (P, g)) :
    P.mach = kw.machCr.getD (wreal (look f.wrap cruiseMach).opt) ∧
    P.alt = roundHundreds (kw.altCr.getD (wreal (look f.wrap cruiseAlt).opt * 1000 / ft)) ∧
    P.hCr = P.alt * ft := by
  simp only [tableOk, Bool.and_eq_true, List.all_cons, List.all_nil, Bool.and_true] at hw
  obtain ⟨⟨⟨⟨⟨⟨⟨⟨⟨⟨⟨⟨x1, x2, x3, x4, x5⟩, x6⟩, y1⟩, y2⟩, z1, z2, z3⟩, y3⟩, y4⟩, y5⟩, y6⟩, y7⟩, y8⟩,
    v1, v2, v3, v4⟩ := hw
  obtain ⟨_, e1, -⟩ := entry_of' y5
  obtain ⟨_, e2, -⟩ := entry_of y3
  obtain ⟨_, e3, -⟩ := entry_of z3
  unfold cruiseSetup at hs
  simp only [e1, e2, e3, bind, Except.bind, pure, Except.pure] at hs
  rw [if_neg (by simp [hr])] at hs
  simp only [Except.ok.injEq, Prod.mk.injEq] at hs
  rw [look_eq e2, look_eq e3, ← hs.1]
  exact ⟨rfl, rfl, rfl⟩

end

end Verif.Gen
