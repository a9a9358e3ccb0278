import Verif.Lemmas.Construct
import Verif.Lemmas.Drag
import Verif.Lemmas.Thrust
import Verif.Lemmas.Feasible

/-!
# Idle thrust

An upper bound of the take-off thrust over all subsonic speeds and altitudes, and the shipped files.
-/

namespace Verif.Idle
open Verif Verif.Aero Verif.Tables Verif.Construct Verif.Registry Verif.Spec
open Verif.Data (shipped)
open Real

/-- The linear speed term outweighs the quadratic one up to Mach 1.2656. -/
theorem coeff_order {l : ℝ} (h0 : 0 ≤ l) (h1 : l ≤ 16) :
    (0.23 + 0.19 * sqrt l) * 1.291 ≤
      0.377 * (1 + l) / sqrt ((1 + 0.82 * l) * (0.0606 * l + 0.6337)) := by
  have hG : 0 < (1 + 0.82 * l) * (0.0606 * l + 0.6337) := by positivity
  have hb : sqrt ((1 + 0.82 * l) * (0.0606 * l + 0.6337)) ≤ 0.978 + 0.2422 * l := by
    refine Real.sqrt_le_iff.2 ⟨by positivity, ?_⟩
    nlinarith [sq_nonneg (l - 6)]
  rw [le_div_iff₀ (sqrt_pos.2 hG)]
  have hs0 := sqrt_nonneg l
  have hs2 := sq_sqrt h0
  have hs4 : sqrt l ≤ 4 := Real.sqrt_le_iff.2 ⟨by norm_num, by linarith⟩
  refine (mul_le_mul_of_nonneg_left hb (by positivity)).trans ?_
  rw [← hs2]
  generalize sqrt l = s at *
  rw [show sqrt (s ^ 2) = s from Real.sqrt_sq hs0]
  rcases le_total s 1 with h | h
  · nlinarith [sq_nonneg (s - 0.5), mul_nonneg (sq_nonneg s) (sub_nonneg.2 h)]
  · have := mul_nonneg (mul_nonneg hs0 (sub_nonneg.2 h)) (sub_nonneg.2 hs4)
    nlinarith

theorem polys {x : ℝ} (h0 : 0 ≤ x) (h1 : x ≤ 1.053) :
    -0.4327 * x ^ 2 + 1.3855 * x + 0.0472 ≤ 1.0264 ∧
    0 ≤ 0.9106 * x ^ 3 - 1.7736 * x ^ 2 + 1.8697 * x ∧
    0 ≤ 0.1377 * x ^ 3 - 0.4374 * x ^ 2 + 1.3003 * x ∧
    0.1377 * x ^ 3 - 0.4374 * x ^ 2 + 1.3003 * x ≤
      1.02 * (0.9106 * x ^ 3 - 1.7736 * x ^ 2 + 1.8697 * x) := by
  refine ⟨by nlinarith, ?_, ?_, ?_⟩
  · have : 0 ≤ x * (0.9106 * x ^ 2 - 1.7736 * x + 1.8697) :=
      mul_nonneg h0 (by nlinarith [sq_nonneg (x - 1)])
    linarith
  · have : 0 ≤ x * (0.1377 * x ^ 2 - 0.4374 * x + 1.3003) :=
      mul_nonneg h0 (by nlinarith [sq_nonneg x])
    linarith
  · have : 0 ≤ x * (0.791112 * x ^ 2 - 1.371672 * x + 0.606794) :=
      mul_nonneg h0 (by nlinarith [sq_nonneg (x - 0.867)])
    nlinarith

/-- Take-off thrust exceeds the rated thrust by at most 2.64 %. -/
theorem takeoff_le {e : Thrust.Params ℝ} (hb : 0 ≤ e.bpr) (hb' : e.bpr ≤ 16) (hm : 0 < e.maxThrust)
    (hn : 0 < e.number) {tas alt : ℝ} (dT : ℝ) (ht : 0 ≤ tas) (ht' : tas ≤ 800) (ha : 0 ≤ alt) :
    Thrust.takeoff np e tas alt dT ≤ 1.0264 * (e.maxThrust * e.number) := by
  have hv : 325.19 ≤ vsound np 0 dT := by
    rw [vsound_eq]
    refine Real.le_sqrt_of_sq_le ?_
    have := (shift_bounds dT).1
    unfold isaTemp
    rw [if_pos (by norm_num)]
    norm_num
    linarith
  have hM : tas2mach np (tas * 0.514444) 0 dT ≤ 1.2656 := by
    unfold tas2mach
    rw [div_le_iff₀ (by linarith)]
    nlinarith
  have hM0 : 0 ≤ tas2mach np (tas * 0.514444) 0 dT := by
    unfold tas2mach
    have := vsound_pos 0 dT
    positivity
  have hP0 := pressure_pos (alt * 0.3048) dT
  have hP : pressure np (alt * 0.3048) dT / 101325 ≤ 1.053 := by
    have h1 : pressure np (alt * 0.3048) dT ≤ pressure np 0 dT :=
      (pressure_strictAnti dT).antitone (by positivity)
    have h2 : pressure np 0 dT ≤ 1.053 * 101325 := by
      rw [pressure_eq, density_eq, temperature_eq]
      have e1 : isaTemp 0 dT = 288.15 + shift dT := by
        unfold isaTemp; rw [if_pos (by norm_num)]; norm_num
      have := (shift_bounds dT).2
      have hp := T0s_pos dT
      rw [e1, div_self hp.ne', one_rpow, max_eq_left (by norm_num), neg_zero, zero_div, exp_zero]
      norm_num
      linarith
    rw [div_le_iff₀ (by norm_num)]
    exact h1.trans h2
  have hx0 : 0 ≤ pressure np (alt * 0.3048) dT / 101325 := by positivity
  obtain ⟨pA, pZ, pX, pXZ⟩ := polys hx0 hP
  have hc := coeff_order hb hb'
  have key : Thrust.takeoffRatio np e (tas2mach np (tas * 0.514444) 0 dT)
      (pressure np (alt * 0.3048) dT / 101325) ≤ 1.0264 := by
    generalize pressure np (alt * 0.3048) dT / 101325 = x at *
    generalize tas2mach np (tas * 0.514444) 0 dT = M at *
    unfold Thrust.takeoffRatio
    simp only [np]
    rw [show (1.0 : ℝ) = 1 by norm_num]
    generalize 0.377 * (1 + e.bpr) / sqrt ((1 + 0.82 * e.bpr) * (0.0606 * e.bpr + 0.6337)) = c at *
    have hd : 0 ≤ 0.23 + 0.19 * sqrt e.bpr := by positivity
    generalize 0.23 + 0.19 * sqrt e.bpr = d at *
    generalize -0.4327 * x ^ 2 + 1.3855 * x + 0.0472 = A at *
    generalize 0.9106 * x ^ 3 - 1.7736 * x ^ 2 + 1.8697 * x = Z at *
    generalize 0.1377 * x ^ 3 - 0.4374 * x ^ 2 + 1.3003 * x = X at *
    have h1 : d * X * M ^ 2 ≤ c * Z * M := by
      calc d * X * M ^ 2 = d * X * M * M := by ring
        _ ≤ d * (1.02 * Z) * 1.2656 * M := by gcongr
        _ ≤ d * 1.291 * Z * M := by
          have : 0 ≤ d * Z * M := by positivity
          nlinarith
        _ ≤ c * Z * M := by gcongr
    linarith
  unfold Thrust.takeoff
  have e0 : (0.0 : ℝ) = 0 := by norm_num
  have e1 : (p0 : ℝ) = 101325 := by norm_num [p0]
  simp only [kts, ft, e0, e1]
  rw [mul_assoc]
  gcongr

/-- 7 % of the rated thrust, with 2.64 % more and on a path of slope 0.2, against the least drag of
the empty aircraft, squared and as whole numbers. -/
def quiet (a : AircraftRow) (e : EngineRow) (p : PolarRow) : Bool :=
  decide (0 < a.oew ∧ e.bpr.getD 0 ≤ 160000000000000000 ∧
    104 * (718480 * (e.maxThrust.getD 0 * a.number)) ^ 2 <
      400 * p.cd0 * p.k * (98066500 * a.oew) ^ 2)

theorem shipped_quiet : (availableAircraft shipped true).all (fun ac =>
    match thrust shipped ac none (some true) false, drag shipped ac (some true) with
    | .ok t, .ok d => quiet t.1 t.2 d.2
    | _, _ => false) = true := by
  decide +kernel

theorem quiet_spec {a : AircraftRow} {e : EngineRow} {p : PolarRow} {P : Thrust.Params ℝ}
    (h : quiet a e p = true) (hP : thrustParams a e = Defined.liftThrust P) :
    0 < real a.oew ∧ P.bpr ≤ 16 ∧ 1.04 * (0.071848 * (P.maxThrust * P.number)) ^ 2 <
      4 * (real p.cd0 * real p.k) * (real a.oew * 9.80665) ^ 2 := by
  unfold quiet at h
  rw [decide_eq_true_eq] at h
  obtain ⟨h1, h2, h3⟩ := h
  unfold thrustParams Defined.liftThrust at hP
  injection hP with _ q2 q3 q4
  rcases e2 : e.bpr with _ | n
  · rw [e2] at q2; cases q2
  rcases e3 : e.maxThrust with _ | t
  · rw [e3] at q3; cases q3
  rw [e2] at q2 h2
  rw [e3] at q3 h3
  injection q2 with q2
  injection q3 with q3
  injection q4 with q4
  refine ⟨real_pos h1, ?_, ?_⟩
  · rw [← q2]
    unfold real
    rw [div_le_iff₀ (by norm_num)]
    norm_num
    exact_mod_cast h2
  · rw [← q3, ← q4]
    have : (104:ℝ) * (718480 * (t * a.number)) ^ 2 <
      400 * p.cd0 * p.k * (98066500 * a.oew) ^ 2 := by exact_mod_cast h3
    unfold real
    norm_num at this ⊢
    ring_nf at this ⊢
    linarith

end Verif.Idle
