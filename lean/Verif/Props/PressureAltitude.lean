import Verif.Lemmas.PressureAltitude

/-!
# C05, C06: pressure altitude
-/

namespace Verif.Props
open Verif.Aero Verif.Spec Verif.Num

/-- **C05.** On a standard day `h_isa` inverts the pressure profile to within 2.5 m from
sea level to 20 km. -/
theorem C05_pressure_altitude (h : ℝ) (h0 : 0 ≤ h) (h1 : h ≤ 20000) :
    |hIsa np (pressure np h 0) 0 - h| ≤ 2.5 := by
  obtain ⟨pl, pu⟩ := p11_bounds
  have hanti := (pressure_strictAnti 0).antitone
  by_cases hh : h ≤ 11000
  · set x := (288.15 - 0.0065 * h) / 288.15 with hx
    have hx0 : 0.75 ≤ x := by rw [hx, le_div_iff₀ (by norm_num)]; linarith
    have hx1 : x ≤ 1 := by rw [hx, div_le_iff₀ (by norm_num)]; linarith
    have hxh : h = 288.15 / 0.0065 * (1 - x) := by rw [hx]; field_simp; ring
    have hp := pressure_trop hh
    rw [← hx] at hp
    have hxp : 0 < x := by linarith
    by_cases hb : 22630 < pressure np h 0
    · rw [hIsa_trop 0 hb, add_zero, hp]
      have hK0 : 0 < K := by unfold K; norm_num
      have e : (K * x ^ (5.256848030018761 : ℝ) / 101325) ^ aExp =
          (K / 101325) ^ aExp * x ^ (5.256848030018761 * aExp) := by
        rw [Real.rpow_mul hxp.le, ← Real.mul_rpow (by positivity) (by positivity)]
        congr 1; ring
      have hK1 : (1 - 1.5e-8 : ℝ) ≤ (K / 101325) ^ aExp := by
        have h1 : (K / 101325 : ℝ) ≤ (K / 101325) ^ aExp := by
          have := Real.rpow_le_rpow_of_exponent_ge (x := K / 101325) (y := 1) (z := aExp)
            (by positivity) (by unfold K; norm_num) (by unfold aExp; norm_num)
          rwa [Real.rpow_one] at this
        refine le_trans ?_ h1
        unfold K; norm_num
      have hK2 : (K / 101325) ^ aExp ≤ 1 :=
        Real.rpow_le_one (by positivity) (by unfold K; norm_num) (by unfold aExp; norm_num)
      set ε := 5.256848030018761 * aExp - 1 with hε
      have hε0 : 0 ≤ ε := by rw [hε]; unfold aExp; norm_num
      have hε1 : ε ≤ 1.85e-4 := by rw [hε]; unfold aExp; norm_num
      have e2 : x ^ (5.256848030018761 * aExp) = x * x ^ ε := by
        have : 5.256848030018761 * aExp = 1 + ε := by rw [hε]; ring
        rw [this, Real.rpow_add hxp, Real.rpow_one]
      have l1 : x ^ ε ≤ 1 := Real.rpow_le_one hxp.le hx1 hε0
      have l2 : 1 + ε * (1 - 1 / x) ≤ x ^ ε := by
        rw [Real.rpow_def_of_pos hxp]
        have a1 := Real.add_one_le_exp (Real.log x * ε)
        have a2 := Real.one_sub_inv_le_log_of_pos hxp
        rw [← one_div] at a2
        nlinarith
      have l3 : x - ε * (1 - x) ≤ x * x ^ ε := by
        have := mul_le_mul_of_nonneg_left l2 hxp.le
        have e3 : x * (1 + ε * (1 - 1 / x)) = x - ε * (1 - x) := by field_simp; ring
        linarith
      rw [e, e2]
      set c := (K / 101325) ^ aExp with hc
      have hxε : 0 ≤ x * x ^ ε := by positivity
      have u1 : c * (x * x ^ ε) ≤ x := by nlinarith
      have u2 : x - c * (x * x ^ ε) ≤ 4.7e-5 := by nlinarith
      rw [hxh, abs_le]
      constructor
      · nlinarith
      · nlinarith
    · rw [not_lt] at hb
      have hp11 : pressure np 11000 0 ≤ pressure np h 0 := hanti hh
      rw [hIsa_strat 0 hb, add_zero]
      have hpp := pressure_pos h 0
      have hl1 : Real.log (pressure np h 0 / 22630) ≤ 0 :=
        Real.log_nonpos (by positivity) (by rw [div_le_one (by norm_num)]; exact hb)
      have hl2 : -1.91e-4 ≤ Real.log (pressure np h 0 / 22630) := by
        have := Real.one_sub_inv_le_log_of_pos (x := pressure np h 0 / 22630) (by positivity)
        refine le_trans ?_ this
        rw [inv_div]
        have : 22630 / pressure np h 0 ≤ 22630 / 22625.7 := by
          apply div_le_div_of_nonneg_left (by norm_num) (by norm_num) (by linarith)
        have h3 : (22630 / 22625.7 : ℝ) ≤ 1 + 1.91e-4 := by norm_num
        linarith
      -- the true altitude is close to the tropopause
      have hnear : 10998.75 ≤ h := by
        obtain ⟨y, hy⟩ : ∃ y : ℝ, y = 4333 / 5763 := ⟨_, rfl⟩
        have e11 : pressure np 11000 0 = K * y ^ (5.256848030018761 : ℝ) := by
          rw [pressure_trop le_rfl]
          congr 2
          rw [hy]; norm_num
        have hb1 : 1 + 5.256848030018761 * (x / y - 1) ≤ (x / y) ^ (5.256848030018761 : ℝ) := by
          have := one_add_mul_self_le_rpow_one_add (s := x / y - 1) (p := 5.256848030018761)
            (by have : 0 < x / y := by rw [hy]; positivity
                linarith) (by norm_num)
          rwa [add_sub_cancel] at this
        have e12 : pressure np h 0 = pressure np 11000 0 * (x / y) ^ (5.256848030018761 : ℝ) := by
          rw [hp, e11, Real.div_rpow hxp.le (by rw [hy]; norm_num)]
          have : 0 < y ^ (5.256848030018761 : ℝ) := Real.rpow_pos_of_pos (by rw [hy]; norm_num) _
          field_simp
        have hb2 : pressure np 11000 0 * (1 + 5.256848030018761 * (x / y - 1)) ≤ 22630 := by
          refine le_trans ?_ hb
          rw [e12]
          exact mul_le_mul_of_nonneg_left hb1 (pressure_pos _ _).le
        have e13 : x / y - 1 = 0.0065 * (11000 - h) / 216.65 := by
          rw [hx, hy]; field_simp; ring
        rw [e13] at hb2
        have hd : 0 ≤ 0.0065 * (11000 - h) / 216.65 := by
          apply div_nonneg _ (by norm_num); linarith
        have hb3 : 22625.7 * (1 + 5.256848030018761 * (0.0065 * (11000 - h) / 216.65)) ≤ 22630 := by
          refine le_trans ?_ hb2
          apply mul_le_mul_of_nonneg_right pl
          linarith
        clear e11 e12 hb1 hp
        norm_num at hb3 ⊢
        linarith
      obtain ⟨c, hc⟩ : ∃ c : ℝ, c = 287.05287 * 216.65 / 9.80665 := ⟨_, rfl⟩
      have hc1 : c ≤ 6341.62 := by rw [hc]; norm_num
      have hc2 : 6341.6 ≤ c := by rw [hc]; norm_num
      rw [← hc]
      clear hp
      generalize Real.log (pressure np h 0 / 22630) = L at *
      rw [abs_le]
      constructor <;> nlinarith
  · rw [not_le] at hh
    have hp := pressure_strat hh.le
    have hp11 := pressure_pos 11000 0
    have hb : pressure np h 0 ≤ 22630 := by
      have : pressure np h 0 ≤ pressure np 11000 0 := hanti hh.le
      linarith
    rw [hIsa_strat 0 hb, add_zero, hp]
    have e : Real.log (pressure np 11000 0 * Real.exp (-(h - 11000) / 6341.552161) / 22630) =
        Real.log (pressure np 11000 0 / 22630) - (h - 11000) / 6341.552161 := by
      rw [mul_div_right_comm, Real.log_mul (by positivity) (Real.exp_pos _).ne', Real.log_exp]
      ring
    rw [e]
    have hl1 : Real.log (pressure np 11000 0 / 22630) ≤ 0 :=
      Real.log_nonpos (by positivity) (by rw [div_le_one (by norm_num)]; linarith)
    have hl2 : -1.91e-4 ≤ Real.log (pressure np 11000 0 / 22630) := by
      have := Real.one_sub_inv_le_log_of_pos (x := pressure np 11000 0 / 22630) (by positivity)
      refine le_trans ?_ this
      rw [inv_div]
      have : 22630 / pressure np 11000 0 ≤ 22630 / 22625.7 := by
        apply div_le_div_of_nonneg_left (by norm_num) (by norm_num) (by linarith)
      have h3 : (22630 / 22625.7 : ℝ) ≤ 1 + 1.91e-4 := by norm_num
      linarith
    obtain ⟨c, hc⟩ : ∃ c : ℝ, c = 287.05287 * 216.65 / 9.80665 := ⟨_, rfl⟩
    have hc1 : c ≤ 6341.62 := by rw [hc]; norm_num
    have hc2 : 6341.6 ≤ c := by rw [hc]; norm_num
    rw [← hc]
    generalize Real.log (pressure np 11000 0 / 22630) = L at *
    obtain ⟨t, ht⟩ : ∃ t, t = (h - 11000) / 6341.552161 := ⟨_, rfl⟩
    have ht0 : 0 ≤ t := by rw [ht]; apply div_nonneg <;> linarith
    have ht1 : t ≤ 1.42 := by rw [ht, div_le_iff₀ (by norm_num)]; linarith
    have hht : h = 11000 + 6341.552161 * t := by rw [ht]; field_simp; ring
    rw [← ht, hht, abs_le]
    constructor <;> nlinarith

example : (0:ℝ) ≤ 10999 ∧ (10999:ℝ) ≤ 20000 ∧ hIsa np (pressure np 10999 0) 0 ≤ 11001.5 := by
  refine ⟨by norm_num, by norm_num, ?_⟩
  have := (abs_le.1 (C05_pressure_altitude 10999 (by norm_num) (by norm_num))).2
  linarith

/-- **C05, failing direction.** With a temperature shift the inversion does not hold: at sea
level with `dT = 10` the pressure computed by the same model is mapped more than 250 m
below sea level. -/
theorem C05_fails_with_shift : hIsa np (pressure np 0 10) 10 < -250 := by
  have hs : shift 10 = 10 := by simp [shift]; norm_num
  have hp : pressure np 0 10 = 1.225 * 287.05287 * 298.15 := by
    rw [pressure_eq, density_eq, temperature_eq, max_eq_left (by norm_num)]
    have : isaTemp 0 10 = 298.15 := by simp only [isaTemp, hs]; norm_num
    rw [this, hs]
    have : (298.15 / (288.15 + 10) : ℝ) = 1 := by norm_num
    rw [this, Real.one_rpow, neg_zero, zero_div, Real.exp_zero, mul_one, mul_one]
  have hlt : 22630 < pressure np 0 10 := by rw [hp]; norm_num
  rw [hIsa_trop 10 hlt, hp]
  have h1 : (1.006 : ℝ) ≤ (1.225 * 287.05287 * 298.15 / 101325 : ℝ) ^ aExp := by
    apply le_rpow_of_one_le 19 100 (by norm_num) (by norm_num) (by norm_num)
      (by unfold aExp; norm_num)
    norm_num
  generalize (1.225 * 287.05287 * 298.15 / 101325 : ℝ) ^ aExp = A at *
  nlinarith

/-- **C06.** On each side of the 22630 Pa switch, higher pressure means strictly lower pressure
altitude. -/
theorem C06_hIsa_decreasing (dT : ℝ) (hd : -216.65 < dT) :
    StrictAntiOn (fun p => hIsa np p dT) (Set.Ioc 0 22630) ∧
    StrictAntiOn (fun p => hIsa np p dT) (Set.Ioi 22630) := by
  constructor
  · intro p ⟨hp0, hp1⟩ q ⟨_, hq1⟩ hpq
    simp only
    rw [hIsa_strat dT hp1, hIsa_strat dT hq1]
    have hl : Real.log (p / 22630) < Real.log (q / 22630) :=
      Real.log_lt_log (by positivity) (by gcongr)
    have hc : 0 < 287.05287 * (216.65 + dT) / 9.80665 := by
      have : 0 < 216.65 + dT := by linarith
      positivity
    nlinarith
  · intro p hp q hq hpq
    rw [Set.mem_Ioi] at hp hq
    simp only
    rw [hIsa_trop dT hp, hIsa_trop dT hq]
    have hl : (p / 101325) ^ aExp < (q / 101325) ^ aExp :=
      Real.rpow_lt_rpow (by positivity) (by gcongr) (by unfold aExp; norm_num)
    have hc : 0 < (288.15 + dT) / 0.0065 := by
      have : 0 < 288.15 + dT := by linarith
      positivity
    nlinarith

example : hIsa np 20000 15 < hIsa np 10000 15 ∧ hIsa np 90000 15 < hIsa np 50000 15 := by
  obtain ⟨h1, h2⟩ := C06_hIsa_decreasing 15 (by norm_num)
  exact ⟨h1 (by constructor <;> norm_num) (by constructor <;> norm_num) (by norm_num),
    h2 (by rw [Set.mem_Ioi]; norm_num) (by rw [Set.mem_Ioi]; norm_num) (by norm_num)⟩

set_option exponentiation.threshold 2000 in
/-- **C06 fails across the switch.** 22630.5 Pa is reported *higher* than 22630 Pa. -/
theorem C06_fails_at_switch : hIsa np 22630 0 < hIsa np 22630.5 0 := by
  rw [hIsa_strat 0 le_rfl, hIsa_trop 0 (by norm_num)]
  have h1 : (22630.5 / 101325 : ℝ) ^ aExp ≤ 0.751864 := by
    apply rpow_le_of_le_one 340 1787 (by norm_num) (by norm_num) (by norm_num) (by norm_num)
      (by unfold aExp; norm_num)
    norm_num
  rw [div_self (by norm_num), Real.log_one]
  generalize (22630.5 / 101325 : ℝ) ^ aExp = A at *
  nlinarith

end Verif.Props
