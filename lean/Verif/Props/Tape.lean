import Verif.Lemmas.TapeExact
import Verif.Lemmas.TapeFlight
import Verif.Props.Overflow

/-!
# C132: derivatives of the fuel flow when an exponential overflows
-/

namespace Verif.Props
open Verif Verif.Spec Verif.Aero Verif.Data Verif.Registry Verif.Tables Verif.Construct Real
open Verif.XR (fin nan pinf)
open Verif.XT (const input arg tangent gradient)

variable {ca : Bool} {w Ω : ℝ} {ι : Type}

/-- **C132 (overflow).** Once the first exponential of the limiter overflows, the derivative of
`at_thrust` is NaN, going forward (whatever the tangent) and going back, with JAX and with CasADi. -/
theorem C132_nan (hΩ : (10 : ℝ) ^ 30 < Ω) (f : Fuel.Params ℝ)
    (hf : FuelRange f.scale f.c1 f.c2 f.c3 f.maxThrust f.number) (T : ℝ) (hT : |T| ≤ 10 ^ 25)
    (h : Ω ≤ exp (50 * (T / (f.number * f.maxThrust) - 0.03))) (i : ι) (v : ι → XR Ω) :
    tangent v (Fuel.atThrust (tape ca w Ω ι) (Rec.fuel const f) (input T i)) = nan ∧
    gradient (Fuel.atThrust (tape ca w Ω ι) (Rec.fuel const f) (input T i)) i = nan := by
  obtain ⟨e1, hr⟩ := XR.ratio_fin hΩ hT hf
  obtain ⟨a1, -⟩ := XR.args_fin hΩ hr
  rw [← div_div] at h
  obtain ⟨t, ht, h1, h2⟩ := XT.atThrust_t_nan (ca := ca) (w := w) (lt_trans (by positivity) hΩ)
    (x := (input T i : XT ca Ω ι)) rfl e1 (by rw [a1]; exact XR.res_pinf h)
  simp only [tangent, gradient, ht]
  exact ⟨h1 v, h2 trivial i rfl (fin 1)⟩

/-- **C132 (no overflow).** Before that, both directions give the derivative of the exact function. -/
theorem C132_exact (hΩ : (10 : ℝ) ^ 30 < Ω) (f : Fuel.Params ℝ)
    (hf : FuelRange f.scale f.c1 f.c2 f.c3 f.maxThrust f.number) (T : ℝ) (hT : |T| ≤ 10 ^ 25)
    (h : 1 + exp (50 * (T / (f.number * f.maxThrust) - 0.03)) < Ω) (i : ι) :
    HasDerivAt (Fuel.atThrust np f) (deriv (Fuel.atThrust np f) T) T ∧
    (∀ v : ℝ, |v| ≤ 1 →
      tangent (fun _ => fin v) (Fuel.atThrust (tape ca w Ω ι) (Rec.fuel const f) (input T i)) =
        fin (v * deriv (Fuel.atThrust np f) T)) ∧
    gradient (Fuel.atThrust (tape ca w Ω ι) (Rec.fuel const f) (input T i)) i =
      fin (deriv (Fuel.atThrust np f) T) := by
  rw [← div_div] at h
  obtain ⟨t, D, ht, hD, h1, h2⟩ := XT.atThrust_t_exact (ca := ca) (w := w) hΩ hf hT h i
  rw [hD.deriv]
  simp only [tangent, gradient, ht]
  exact ⟨hD, h1, h2⟩

/-- The derivative of the fuel flow by the thrust is right up to `lo` times the maximum thrust. -/
def RightUpTo (ca : Bool) (w Ω : ℝ) (f : Fuel.Params ℝ) (lo : ℝ) : Prop :=
  ∀ T : ℝ, |T| ≤ 10 ^ 25 → T ≤ lo * (f.number * f.maxThrust) →
    gradient (Fuel.atThrust (tape ca w Ω Unit) (Rec.fuel const f) (input T ())) () =
      fin (deriv (Fuel.atThrust np f) T) ∧
    ∀ v : ℝ, |v| ≤ 1 →
      tangent (fun _ => fin v) (Fuel.atThrust (tape ca w Ω Unit) (Rec.fuel const f) (input T ())) =
        fin (v * deriv (Fuel.atThrust np f) T)

/-- It is NaN from `hi` times the maximum thrust on, while the fuel flow itself is its upper limit up to
`top` times. -/
def NanFrom (ca : Bool) (w Ω : ℝ) (f : Fuel.Params ℝ) (hi top : ℝ) : Prop :=
  ∀ T : ℝ, |T| ≤ 10 ^ 25 → hi * (f.number * f.maxThrust) ≤ T →
    gradient (Fuel.atThrust (tape ca w Ω Unit) (Rec.fuel const f) (input T ())) () = nan ∧
    (∀ v : XR Ω, tangent (fun _ => v)
      (Fuel.atThrust (tape ca w Ω Unit) (Rec.fuel const f) (input T ())) = nan) ∧
    (T ≤ top * (f.number * f.maxThrust) →
      Fuel.atThrust (ovf Ω) (Rec.fuel fin f) (fin T) = fin (f.scale * f.c1 * f.number))

theorem gradient_regimes {n m : ℕ} {lo hi top : ℝ} (hn : 127 ≤ n) (h1 : (2 : ℝ) ^ n ≤ Ω)
    (h2 : Ω ≤ (2 : ℝ) ^ m) (hlo : 50 * (lo - 0.03) + 0.001 ≤ n * 0.69314718) (hlo' : 1 ≤ lo)
    (hhi : (m : ℕ) * 0.69314719 ≤ 50 * (hi - 0.03))
    (htop : 45 * (top - 1.2) + 0.001 ≤ n * 0.69314718) (htop' : 1.5 ≤ top) (f : Fuel.Params ℝ)
    (hf : FuelRange f.scale f.c1 f.c2 f.c3 f.maxThrust f.number) :
    RightUpTo ca w Ω f lo ∧ NanFrom ca w Ω f hi top := by
  have hΩ : (10 : ℝ) ^ 30 < Ω := by
    refine lt_of_lt_of_le ?_ h1
    calc (10 : ℝ) ^ 30 < 2 ^ 127 := by norm_num
      _ ≤ 2 ^ n := pow_le_pow_right₀ (by norm_num) hn
  have hp : 0 < f.number * f.maxThrust :=
    mul_pos (by linarith [hf.hNum.1]) (by linarith [hf.hMax.1])
  constructor
  · intro T hT h
    have hr : T / (f.number * f.maxThrust) ≤ lo := by rwa [div_le_iff₀ hp]
    have k1 : exp (50 * (T / (f.number * f.maxThrust) - 0.03)) ≤ exp (50 * (lo - 0.03)) :=
      exp_le_exp.2 (by linarith)
    have k2 := exp_lt_two_pow (x := 50 * (lo - 0.03)) hlo (by linarith)
    obtain ⟨-, e1, e2⟩ := C132_exact (ca := ca) (w := w) hΩ f hf T hT (by linarith) ()
    exact ⟨e2, e1⟩
  · intro T hT h
    have hr : hi ≤ T / (f.number * f.maxThrust) := by rwa [le_div_iff₀ hp]
    have k1 := two_pow_le_exp hhi
    have k2 : exp (50 * (hi - 0.03)) ≤ exp (50 * (T / (f.number * f.maxThrust) - 0.03)) :=
      exp_le_exp.2 (by linarith)
    have hn := C132_nan (ca := ca) (w := w) hΩ f hf T hT (by linarith) ()
    refine ⟨(hn fun _ => fin 0).2, fun v => (hn fun _ => v).1, fun ht => ?_⟩
    have ht' : T / (f.number * f.maxThrust) ≤ top := by rwa [div_le_iff₀ hp]
    have k3 : exp (45 * (T / (f.number * f.maxThrust) - 1.2)) ≤ exp (45 * (top - 1.2)) :=
      exp_le_exp.2 (by linarith)
    rw [C128_at_thrust hΩ f hf T hT, if_neg (by linarith), if_pos]
    by_cases ht2 : 2 ≤ top
    · have k4 := exp_lt_two_pow (x := 45 * (top - 1.2)) htop (by linarith)
      linarith
    · have k4 : exp (45 * (top - 1.2)) ≤ exp 36 := exp_le_exp.2 (by linarith)
      have k5 := exp_lt_two_pow (x := 36) (n := 127) (by norm_num) (by norm_num)
      have k6 : (2 : ℝ) ^ 127 ≤ 2 ^ n := pow_le_pow_right₀ (by norm_num) ‹127 ≤ n›
      linarith

/-- **C132 (single precision, as JAX computes by default).** The derivative is right up to 1.78 times
the maximum thrust and NaN from 1.81 times on, although the fuel flow is finite up to 3.15 times. -/
theorem C132_single (h : Single Ω) (f : Fuel.Params ℝ)
    (hf : FuelRange f.scale f.c1 f.c2 f.c3 f.maxThrust f.number) :
    RightUpTo ca w Ω f 1.78 ∧ NanFrom ca w Ω f 1.81 3.15 :=
  gradient_regimes (n := 127) (m := 128) (by norm_num) h.lower h.upper (by norm_num) (by norm_num)
    (by norm_num) (by norm_num) (by norm_num) f hf

/-- **C132 (double precision).** Right up to 14.2 times the maximum thrust, NaN from 14.23 times on;
the fuel flow is finite up to 16.9 times. -/
theorem C132_double (h : Double Ω) (f : Fuel.Params ℝ)
    (hf : FuelRange f.scale f.c1 f.c2 f.c3 f.maxThrust f.number) :
    RightUpTo ca w Ω f 14.2 ∧ NanFrom ca w Ω f 14.23 16.9 :=
  gradient_regimes (n := 1023) (m := 1024) (by norm_num) h.lower h.upper (by norm_num) (by norm_num)
    (by norm_num) (by norm_num) (by norm_num) f hf

/-- **C132 (flight).** When the required thrust is that high, the derivative of the fuel flow of
`enroute` by any of mass, airspeed, altitude, vertical speed, acceleration and temperature shift is NaN,
whichever of them are differentiated. -/
theorem C132_enroute (hΩ : (10 : ℝ) ^ 30 < Ω) (f : Fuel.Params ℝ)
    (hf : FuelRange f.scale f.c1 f.c2 f.c3 f.maxThrust f.number) (ac : Drag.Airframe ℝ)
    (pol : Drag.Polar ℝ) (mass tas alt vs acc dT : ℝ) (limit : Bool)
    (h : Moderate ac.area pol.cd0 pol.k mass tas alt vs acc)
    (hT : Ω ≤ exp (50 * (Fuel.enrouteThrust np ac pol false mass tas alt vs acc dT /
      (f.number * f.maxThrust) - 0.03)))
    (jm jt ja jv jc jd : Option ι) (i : ι) (hi : some i ∈ [jm, jt, ja, jv, jc, jd]) :
    let r := Fuel.enroute (tape ca w Ω ι) (Rec.fuel const f) (Rec.airframe const ac)
      (Rec.polar const pol) false (arg mass jm) (arg tas jt) (arg alt ja) (arg vs jv) (arg acc jc)
      (arg dT jd) limit
    gradient r i = nan ∧ ∀ v : ι → XR Ω, tangent v r = nan := by
  intro r
  have ok : ∀ (x : ℝ) (j : Option ι), XT.Ok (arg x j : XT ca Ω ι) := fun x j => by
    cases j
    · exact XT.ok_const x
    · exact XT.ok_input x
  have us : ∀ (x : ℝ) (j : Option ι), XT.Use i (arg x j : XT ca Ω ι) ↔ some i = j := fun x j => by
    cases j <;> simp [XT.Use, arg, const, input, Tape.Uses]
  have vp : ∀ (x : ℝ) (j : Option ι), (arg x j : XT ca Ω ι).p = fin x := fun x j => by
    cases j <;> rfl
  have hu : XT.Use i (Fuel.enrouteThrust (tape ca w Ω ι) (Rec.airframe const ac)
      (Rec.polar const pol) false (arg mass jm) (arg tas jt) (arg alt ja) (arg vs jv) (arg acc jc)
      (arg dT jd)) := by
    rw [XT.use_enrouteThrust]
    simp only [us]
    simpa using hi
  have ho := XT.ok_enrouteThrust (w := w) ac pol _ _ _ _ _ _ (ok mass jm) (ok tas jt) (ok alt ja)
    (ok vs jv) (ok acc jc) (ok dT jd)
  have hv := XT.p_enrouteThrust (w := w) ac pol (arg mass jm) (arg tas jt) (arg alt ja) (arg vs jv)
    (arg acc jc) (arg dT jd) (vp dT jd)
  simp only [vp] at hv
  obtain ⟨h1, h2⟩ := XR.enrouteThrust_fin (dT := dT) hΩ h
  rw [h1] at hv
  obtain ⟨s, hs, hsu⟩ := hu
  obtain ⟨e1, hr⟩ := XR.ratio_fin hΩ (h2.le.trans (by norm_num)) hf
  rw [← hv] at e1
  obtain ⟨a1, -⟩ := XR.args_fin hΩ hr
  rw [← div_div] at hT
  obtain ⟨t, ht, k1, k2⟩ := XT.atThrust_t_nan (ca := ca) (w := w) (lt_trans (by positivity) hΩ) hs e1
    (by rw [a1]; exact XR.res_pinf hT)
  have e : r.t = some t := ht
  simp only [tangent, gradient, e]
  exact ⟨k2 (ho s hs) i hsu (fin 1), k1⟩

/-- **C132 (shipped aircraft).** For every type code offered by
`available_aircraft(use_synonym=True)` and its default engine, in level flight at any altitude from
sea level up and any mass from the operating empty mass up, every derivative of the fuel flow is NaN at
15 kt or less in single precision and at 5.5 kt or less in double precision. -/
theorem C132_shipped : ∀ ac ∈ availableAircraft shipped true, ∃ (p : FuelParts) (f : Fuel.Params ℝ),
    fuel shipped ac none (some true) false = .ok p ∧ fuelParams p = Defined.liftFuel f ∧
    ∀ mass tas alt acc dT limit Ω, real p.ac.oew ≤ mass → mass ≤ 10000000 → 0 ≤ alt →
      alt ≤ 1000000 → 0 ≤ acc → acc ≤ 10000 →
      (Double Ω ∧ |tas| ≤ 5.5) ∨ (Single Ω ∧ |tas| ≤ 15) →
      ∀ (ca : Bool) (w : ℝ) (i : Fin 6),
      gradient (Fuel.enroute (tape ca w Ω (Fin 6)) (Rec.fuel const f)
        (Rec.airframe const (airframe p.ac)) (Rec.polar const (polarParams p.drag.2)) false
        (input mass 0) (input tas 1) (input alt 2) (input 0 3) (input acc 4) (input dT 5) limit) i =
        nan := by
  intro ac hac
  obtain ⟨p, f, h1, hf, hfr, hnm, hA, hA1, H⟩ := slow_shipped ac hac
  refine ⟨p, f, h1, hf, ?_⟩
  intro mass tas alt acc dT limit Ω m1 m2 a1 a2 g1 g2 hcase ca w i
  obtain ⟨m0, hmod, key⟩ := H mass tas alt acc m1 m2 a1 a2 g1 g2
  have tsq : ∀ c, |tas| ≤ c → tas ^ 2 ≤ c ^ 2 := fun c h => by
    rw [← sq_abs]; exact pow_le_pow_left₀ (abs_nonneg _) h 2
  have hi : some i ∈ [some (0 : Fin 6), some 1, some 2, some 3, some 4, some 5] := by
    revert i; decide
  have := mul_pos hnm hA
  rcases hcase with ⟨o, ht⟩ | ⟨o, ht⟩
  · have t2 := tsq 5.5 ht
    have hm := hmod (by linarith)
    refine (C132_enroute o.big f hfr _ _ mass tas alt 0 acc dT limit hm ?_ (some 0) (some 1) (some 2)
      (some 3) (some 4) (some 5) i hi).1
    have hs := slow_thrust (airframe p.ac) (polarParams p.drag.2) mass tas alt acc dT 5 hA1 hm.hCd0.1
      hm.hK.1 m0 a1 g1 (by nlinarith) (by norm_num)
    have hb : 14.23 ≤ Fuel.enrouteThrust np (airframe p.ac) (polarParams p.drag.2) false mass tas alt 0
        acc dT / (f.number * f.maxThrust) := by
      rw [le_div_iff₀ hnm]
      refine le_trans ?_ hs
      rw [le_div_iff₀ (by linarith)]
      nlinarith
    exact o.upper.trans (two_pow_le_exp (by push_cast; linarith))
  · have t2 := tsq 15 ht
    have hm := hmod (by linarith)
    refine (C132_enroute o.big f hfr _ _ mass tas alt 0 acc dT limit hm ?_ (some 0) (some 1) (some 2)
      (some 3) (some 4) (some 5) i hi).1
    have hs := slow_thrust (airframe p.ac) (polarParams p.drag.2) mass tas alt acc dT 36.5 hA1 hm.hCd0.1
      hm.hK.1 m0 a1 g1 (by nlinarith) (by norm_num)
    have hb : 1.81 ≤ Fuel.enrouteThrust np (airframe p.ac) (polarParams p.drag.2) false mass tas alt 0
        acc dT / (f.number * f.maxThrust) := by
      rw [le_div_iff₀ hnm]
      refine le_trans ?_ hs
      rw [le_div_iff₀ (by linarith)]
      nlinarith
    exact o.upper.trans (two_pow_le_exp (by push_cast; linarith))

/-- Twice the maximum thrust with JAX: the fuel flow is finite, its derivative NaN; at the maximum thrust
the derivative is right. -/
example : Fuel.atThrust (ovf (2 ^ 128)) (Rec.fuel fin ⟨1, 1.045, 2.363, 1.238, 100000, 2⟩)
      (fin 400000) = fin (1 * 1.045 * 2) ∧
    gradient (Fuel.atThrust (tape false 0.5 (2 ^ 128) Unit)
      (Rec.fuel const ⟨1, 1.045, 2.363, 1.238, 100000, 2⟩) (input 400000 ())) () = nan ∧
    gradient (Fuel.atThrust (tape false 0.5 (2 ^ 128) Unit)
      (Rec.fuel const ⟨1, 1.045, 2.363, 1.238, 100000, 2⟩) (input 200000 ())) () =
      fin (deriv (Fuel.atThrust np ⟨1, 1.045, 2.363, 1.238, 100000, 2⟩) 200000) := by
  have hf : FuelRange 1 1.045 2.363 1.238 100000 2 :=
    ⟨by norm_num, by norm_num, by norm_num, by norm_num, by norm_num, by norm_num⟩
  obtain ⟨h1, h2⟩ := C132_single (ca := false) (w := 0.5) single_top
    ⟨1, 1.045, 2.363, 1.238, 100000, 2⟩ hf
  obtain ⟨k1, -, k2⟩ := h2 400000 (by norm_num) (by norm_num)
  exact ⟨k2 (by norm_num), k1, (h1 200000 (by norm_num) (by norm_num)).1⟩

/-- An A320 of 78 t accelerating slowly at 20 kt with JAX: the derivative by the airspeed is NaN, also
when the airspeed is the only argument differentiated. -/
example : gradient (Fuel.enroute (tape false 0.5 (2 ^ 128) Unit)
    (Rec.fuel const ⟨1, 1.045, 2.363, 1.238, 117877, 2⟩)
    (Rec.airframe const ⟨124, 34, 25, none, 78000, false⟩) (Rec.polar const ⟨0.018, 0.039, 0, 0, 0⟩)
    false (const 78000) (input 20 ()) (const 0) (const 0) (const 0.5) (const 0) true) () = nan := by
  refine (C132_enroute (ι := Unit) single_top.big ⟨1, 1.045, 2.363, 1.238, 117877, 2⟩
    ⟨by norm_num, by norm_num, by norm_num, by norm_num, by norm_num, by norm_num⟩
    ⟨124, 34, 25, none, 78000, false⟩ ⟨0.018, 0.039, 0, 0, 0⟩ 78000 20 0 0 0.5 0 true
    ⟨by norm_num, by norm_num, by norm_num, by norm_num, by norm_num, by norm_num, by norm_num,
      by norm_num⟩ ?_ none (some ()) none none none none () (by simp)).1
  have hs := slow_thrust ⟨124, 34, 25, none, 78000, false⟩ ⟨0.018, 0.039, 0, 0, 0⟩ 78000 20 0 0.5 0 65
    (by norm_num) (by norm_num) (by norm_num) (by norm_num) (by norm_num) (by norm_num) (by norm_num)
    (by norm_num)
  have hb : 1.81 ≤ Fuel.enrouteThrust np ⟨124, 34, 25, none, 78000, false⟩ ⟨0.018, 0.039, 0, 0, 0⟩ false
      78000 20 0 0 0.5 0 / (2 * 117877) := by
    rw [le_div_iff₀ (by norm_num)]
    exact le_trans (by norm_num) hs
  exact single_top.upper.trans (two_pow_le_exp (by push_cast; linarith))

end Verif.Props
