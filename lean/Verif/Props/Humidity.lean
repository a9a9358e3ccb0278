import Verif.Lemmas.Contrail
import Verif.Spec.MoistAir

/-!
# C134: relative humidity of moist air
-/

namespace Verif.Props
open Verif Verif.Contrail Verif.Spec

/-- The relative humidity computed for moist air: the true one times `1 + 0.6077... q`. -/
theorem humidity_factor (m : MoistAir) :
    m.specificHumidity * m.pressure * (461.51 / 287.05) =
      m.vapourPressure * (1 + m.specificHumidity * (174.46 / 287.05)) := by
  have := m.hVapour
  have := m.hDry
  have hs : m.vapour + m.dry ≠ 0 := by positivity
  unfold MoistAir.specificHumidity MoistAir.pressure MoistAir.vapourPressure
  field_simp
  ring

/-- **C134.** `relative_humidity` of moist air, from its specific humidity, pressure and temperature, is
the ratio of vapour pressure to saturation pressure times `1 + q 174.46 / 287.05`: never too low, exact
for dry air only, too high by less than 2.5 % up to 40 g/kg and by less than 0.0125 % up to 0.2 g/kg. -/
theorem C134_humidity (m : MoistAir) (phase : String) (sat : ℝ)
    (hp : phase = "ice" ∧ sat = satIce m.temp ∨ phase = "water" ∧ sat = satWater m.temp) :
    let q := m.specificHumidity
    let true_rh := m.vapourPressure / sat
    ∃ rh, relativeHumidity q m.pressure m.temp phase = .ok rh ∧
      rh = true_rh * (1 + q * (174.46 / 287.05)) ∧ true_rh ≤ rh ∧ (rh = true_rh ↔ m.vapour = 0) ∧
      (q ≤ 0.04 → rh ≤ 1.025 * true_rh) ∧ (q ≤ 0.0002 → rh ≤ 1.000125 * true_rh) := by
  intro q true_rh
  have hs : 0 < sat := by
    rcases hp with ⟨-, rfl⟩ | ⟨-, rfl⟩ <;> exact Real.exp_pos _
  have hv := m.hVapour
  have hd := m.hDry
  have ht := m.hTemp
  have q0 : 0 ≤ q := div_nonneg hv (by linarith)
  have e0 : 0 ≤ m.vapourPressure := by unfold MoistAir.vapourPressure; positivity
  have r0 : 0 ≤ true_rh := div_nonneg e0 hs.le
  refine ⟨true_rh * (1 + q * (174.46 / 287.05)), ?_, rfl, ?_, ?_, ?_, ?_⟩
  · have e : relativeHumidity q m.pressure m.temp phase =
        .ok (q * m.pressure * (461.51 / 287.05) / sat) := by
      rcases hp with ⟨rfl, rfl⟩ | ⟨rfl, rfl⟩ <;>
        simp [relativeHumidity, gasConstantWaterVapor, gasConstantDryAir]
    rw [e, humidity_factor, mul_div_right_comm]
  · have : 0 ≤ true_rh * (q * (174.46 / 287.05)) := by positivity
    linarith
  · constructor
    · intro h
      have : true_rh * q = 0 := by linarith
      rcases mul_eq_zero.1 this with h | h
      · have h := (div_eq_zero_iff.1 h).resolve_right hs.ne'
        unfold MoistAir.vapourPressure at h
        rcases mul_eq_zero.1 h with h | h
        · linarith
        · exact absurd h ht.ne'
      · exact (div_eq_zero_iff.1 h).resolve_right (by linarith)
    · intro h
      have : q = 0 := by simp [q, MoistAir.specificHumidity, h]
      rw [this]; ring
  · intro h
    have : q * (174.46 / 287.05) ≤ 0.025 := by linarith
    nlinarith
  · intro h
    have : q * (174.46 / 287.05) ≤ 0.000125 := by linarith
    nlinarith

/-- **C134 (supersaturation).** Ice-supersaturated air is always recognised; air is wrongly taken for
supersaturated only within that factor of saturation. -/
theorem C134_supersaturation (m : MoistAir) :
    ∃ rh, relativeHumidity m.specificHumidity m.pressure m.temp "ice" = .ok rh ∧
      (satIce m.temp ≤ m.vapourPressure → 1 ≤ rh) ∧
      (1 ≤ rh → satIce m.temp ≤ m.vapourPressure * (1 + m.specificHumidity * (174.46 / 287.05))) ∧
      ((1 ≤ rh ∧ m.vapourPressure < satIce m.temp) ↔
        satIce m.temp / (1 + m.specificHumidity * (174.46 / 287.05)) ≤ m.vapourPressure ∧
        m.vapourPressure < satIce m.temp) := by
  obtain ⟨rh, h1, h2, h3, -⟩ := C134_humidity m "ice" _ (.inl ⟨rfl, rfl⟩)
  have hs : 0 < satIce m.temp := Real.exp_pos _
  have hv := m.hVapour
  have hd := m.hDry
  have q0 : 0 ≤ m.specificHumidity := div_nonneg hv (by linarith)
  have hf : 0 < 1 + m.specificHumidity * (174.46 / 287.05) := by positivity
  have key : 1 ≤ rh ↔ satIce m.temp ≤ m.vapourPressure * (1 + m.specificHumidity * (174.46 / 287.05)) := by
    rw [h2, div_mul_eq_mul_div, le_div_iff₀ hs, one_mul]
  refine ⟨rh, h1, fun h => ?_, key.1, ?_⟩
  · exact le_trans ((one_le_div hs).2 h) h3
  · rw [key, div_le_iff₀ hf]

/-- Air with 1 g/kg of vapour at 230 K: too high, by 0.06 %. -/
example : ∃ m : MoistAir, m.specificHumidity = 0.001 ∧ m.temp = 230 ∧ m.vapour ≠ 0 :=
  ⟨⟨0.001, 0.999, 230, by norm_num, by norm_num, by norm_num⟩,
    by norm_num [MoistAir.specificHumidity], rfl, by norm_num⟩

end Verif.Props
