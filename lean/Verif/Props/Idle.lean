import Verif.Lemmas.Idle
import Verif.Props.Construct
import Verif.Props.Drag

/-!
# C139: idle thrust is less than the drag
-/

namespace Verif.Props
open Verif Verif.Data Verif.Registry Verif.Tables Verif.Construct Verif.Aero

/-- **C139.** Whatever type is offered: at every mass from its empty weight, every altitude at or
above sea level, every speed up to 800 kt and every path no steeper than 20 %, climbing or
descending, idle thrust is less than the clean drag, so that at idle it decelerates or descends. -/
theorem C139_idle_below_drag {ac : Str} (hac : ac ∈ availableAircraft shipped true) :
    ∃ a e p P, thrust shipped ac none (some true) false = .ok (a, e) ∧
      drag shipped ac (some true) = .ok (a, p) ∧ thrustParams a e = Defined.liftThrust P ∧
      ∀ wave m tas alt vs dT, real a.oew ≤ m → 0 < tas → tas ≤ 800 → 0 ≤ alt →
        |vs * 0.00508| ≤ 0.2 * (tas * 0.514444) →
        Thrust.descentIdle np P tas alt dT <
          Drag.clean np (airframe a) (polarParams p) wave m tas alt vs dT := by
  obtain ⟨q, -, h1, ⟨p, h2, h2'⟩, -, -, ⟨P, hP, p1, p2, p3, -⟩, -, -, -, -, -, -, h0, hk, -⟩ :=
    C37_every_aircraft_constructs ac hac
  refine ⟨q.ac, q.eng, p, P, h1, h2, hP, ?_⟩
  intro wave m tas alt vs dT hm ht ht' ha hs
  have hq := List.all_eq_true.1 Idle.shipped_quiet ac hac
  rw [h1, h2] at hq
  rw [h2'] at hk h0
  obtain ⟨w1, w2, w3⟩ := Idle.quiet_spec hq hP
  have hm0 : 0 < m := w1.trans_le hm
  have hT := Idle.takeoff_le p1 w2 p2 p3 dT ht.le ht' ha
  have hD := (C24_drag_positive (airframe q.ac) (polarParams p) h0 hk m tas alt dT hm0).2.2.2 wave vs
    ht.ne'
  refine lt_of_lt_of_le ?_ hD
  have hF : 0 < P.maxThrust * P.number := mul_pos p2 p3
  have h3 : Thrust.descentIdle np P tas alt dT ≤ 0.071848 * (P.maxThrust * P.number) := by
    unfold Thrust.descentIdle
    linarith
  refine h3.trans_lt ?_
  have hv : 0 < tas * 0.514444 := by positivity
  have hz : Real.sqrt ((tas * 0.514444) ^ 2 + (vs * 0.00508) ^ 2) ^ 2 ≤ 1.04 * (tas * 0.514444) ^ 2 := by
    rw [Real.sq_sqrt (by positivity)]
    have := sq_le_sq' (abs_le.1 hs).1 (abs_le.1 hs).2
    nlinarith
  have hz0 : 0 < Real.sqrt ((tas * 0.514444) ^ 2 + (vs * 0.00508) ^ 2) :=
    Real.sqrt_pos.2 (by positivity)
  have hc : 0 < (polarParams p).cd0 * (polarParams p).k := mul_pos h0 hk
  rw [abs_of_pos hv]
  generalize Real.sqrt ((tas * 0.514444) ^ 2 + (vs * 0.00508) ^ 2) = z at *
  generalize tas * 0.514444 = v at *
  refine lt_of_pow_lt_pow_left₀ 2 (by positivity) ?_
  have e : (2 * Real.sqrt ((polarParams p).cd0 * (polarParams p).k) * (m * 9.80665 * (v / z))) ^ 2 =
      4 * ((polarParams p).cd0 * (polarParams p).k) * (m * 9.80665) ^ 2 * (v ^ 2 / z ^ 2) := by
    rw [mul_pow, mul_pow, Real.sq_sqrt hc.le]
    ring
  rw [e, mul_div_assoc', lt_div_iff₀ (by positivity)]
  calc (0.071848 * (P.maxThrust * P.number)) ^ 2 * z ^ 2
      ≤ (0.071848 * (P.maxThrust * P.number)) ^ 2 * (1.04 * v ^ 2) := by gcongr
    _ = 1.04 * (0.071848 * (P.maxThrust * P.number)) ^ 2 * v ^ 2 := by ring
    _ < 4 * (real p.cd0 * real p.k) * (real q.ac.oew * 9.80665) ^ 2 * v ^ 2 := by gcongr
    _ ≤ 4 * ((polarParams p).cd0 * (polarParams p).k) * (m * 9.80665) ^ 2 * v ^ 2 := by
      have : 0 < real p.cd0 * real p.k := hc
      show 4 * (real p.cd0 * real p.k) * _ * _ ≤ 4 * (real p.cd0 * real p.k) * _ * _
      gcongr

/-- **C139, bound.** Behind it: take-off thrust of any engine with a bypass ratio up to 16 is at most
2.64 % above the rated thrust of all engines, at every speed up to 800 kt, every altitude at or above
sea level and every temperature shift. (It does exceed the rated thrust on a hot day, when the
pressure at sea level exceeds the standard one.) -/
theorem C139_rated (P : Thrust.Params ℝ) (hb : 0 ≤ P.bpr) (hb' : P.bpr ≤ 16) (hm : 0 < P.maxThrust)
    (hn : 0 < P.number) :
    (∀ tas alt dT, 0 ≤ tas → tas ≤ 800 → 0 ≤ alt →
      Thrust.takeoff np P tas alt dT ≤ 1.0264 * (P.maxThrust * P.number)) ∧
    1.025 * (P.maxThrust * P.number) < Thrust.takeoff np P 0 0 15 := by
  refine ⟨fun tas alt dT h1 h2 h3 => Idle.takeoff_le hb hb' hm hn dT h1 h2 h3, ?_⟩
  have hs : Spec.shift 15 = 15 := by simp [Spec.shift]; norm_num
  have hP : pressure np 0 15 = 1.225 * 287.05287 * 303.15 := by
    rw [pressure_eq, density_eq, temperature_eq]
    have e1 : Spec.isaTemp 0 15 = 303.15 := by
      unfold Spec.isaTemp; rw [if_pos (by norm_num), hs]; norm_num
    rw [e1, hs, show (288.15 + 15 : ℝ) = 303.15 by norm_num, div_self (by norm_num), Real.one_rpow,
      max_eq_left (by norm_num), neg_zero, zero_div, Real.exp_zero]
    ring
  unfold Thrust.takeoff Thrust.takeoffRatio tas2mach
  simp only [zero_mul, zero_div, mul_zero, hP, p0]
  rw [mul_assoc]
  have : 0 < P.maxThrust * P.number := mul_pos hm hn
  gcongr
  norm_num

/-- An A320 at 60 t and 280 kt, 2000 ft/min down through 20000 ft: a slope of 7 %. -/
example : |(-2000 : ℝ) * 0.00508| ≤ 0.2 * (280 * 0.514444) ∧
    (availableAircraft shipped true).contains ("a320".toList.map Char.toNat) = true :=
  ⟨by rw [abs_le]; norm_num, by decide +kernel⟩

end Verif.Props
