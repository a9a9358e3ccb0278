import Verif.Lemmas.Aero
import Verif.Lemmas.Compress
import Verif.Spec.Airspeed

namespace Verif.Aero
open Verif.Spec Verif.Comp

theorem impact_eq (p rho v : ℝ) : impactPressure p rho v = p * F (rho * v ^ 2 / (7 * p)) := rfl

theorem impact_nonneg {p rho : ℝ} (hp : 0 < p) (hr : 0 < rho) (v : ℝ) :
    0 ≤ impactPressure p rho v := by
  rw [impact_eq]; exact mul_nonneg hp.le (F_nonneg (by positivity))

theorem impact_strictMono {p rho : ℝ} (hp : 0 < p) (hr : 0 < rho) {v w : ℝ} (hv : 0 ≤ v)
    (h : v < w) : impactPressure p rho v < impactPressure p rho w := by
  rw [impact_eq, impact_eq]
  have : rho * v ^ 2 / (7 * p) < rho * w ^ 2 / (7 * p) := by gcongr
  have := F_strictMono (by positivity) this
  gcongr

theorem impact_le_iff {p rho : ℝ} (hp : 0 < p) (hr : 0 < rho) {v w : ℝ} (hv : 0 ≤ v)
    (hw : 0 ≤ w) : impactPressure p rho v ≤ impactPressure p rho w ↔ v ≤ w := by
  constructor
  · intro h; by_contra hc
    exact absurd (impact_strictMono hp hr hw (not_le.1 hc)) (not_lt.2 h)
  · intro h
    rcases h.eq_or_lt with rfl | h
    · exact le_rfl
    · exact (impact_strictMono hp hr hv h).le

theorem impact_lt_iff {p rho : ℝ} (hp : 0 < p) (hr : 0 < rho) {v w : ℝ} (hv : 0 ≤ v)
    (hw : 0 ≤ w) : impactPressure p rho v < impactPressure p rho w ↔ v < w := by
  rw [← not_le, impact_le_iff hp hr hw hv, not_le]

theorem impact_inj {p rho : ℝ} (hp : 0 < p) (hr : 0 < rho) {v w : ℝ} (hv : 0 ≤ v)
    (hw : 0 ≤ w) (h : impactPressure p rho v = impactPressure p rho w) : v = w :=
  le_antisymm ((impact_le_iff hp hr hv hw).1 h.le) ((impact_le_iff hp hr hw hv).1 h.ge)

theorem impact_zero (p rho : ℝ) : impactPressure p rho 0 = 0 := by
  simp [impactPressure]

theorem impact_abs (p rho v : ℝ) : impactPressure p rho |v| = impactPressure p rho v := by
  simp [impactPressure]

/-- The speed whose impact pressure is `q`. -/
theorem impact_solve {p rho q : ℝ} (hp : 0 < p) (hr : 0 < rho) (hq : 0 ≤ q) :
    impactPressure p rho (Real.sqrt (7 * p / rho * ((1 + q / p) ^ (2.0 / 7.0 : ℝ) - 1))) = q := by
  have hy : 0 ≤ q / p := by positivity
  have h0 := inv_nonneg hy
  rw [impact_eq, Real.sq_sqrt (by positivity)]
  have : rho * (7 * p / rho * ((1 + q / p) ^ (2.0 / 7.0 : ℝ) - 1)) / (7 * p) =
      (1 + q / p) ^ (2.0 / 7.0 : ℝ) - 1 := by field_simp
  rw [this, F_inv hy]
  field_simp

/-- CAS to TAS preserves impact pressure. -/
theorem cas2tas_spec (v h dT : ℝ) : 0 ≤ cas2tas np v h dT ∧
    impactPressure (pressure np h dT) (density np h dT) (cas2tas np v h dT) =
      impactPressure 101325 1.225 v := by
  have hp := pressure_pos h dT
  have hr := density_pos h dT
  have hq := impact_nonneg (p := 101325) (rho := 1.225) (by norm_num) (by norm_num) v
  have e : cas2tas np v h dT = Real.sqrt (7 * pressure np h dT / density np h dT *
      ((1 + impactPressure 101325 1.225 v / pressure np h dT) ^ (2.0 / 7.0 : ℝ) - 1)) := by
    simp only [cas2tas, pressure, density, impactPressure]
    simp only [np, p0, rho0]
    norm_num [pow_two, mul_assoc]
  rw [e]
  exact ⟨Real.sqrt_nonneg _, impact_solve hp hr hq⟩

/-- TAS to CAS preserves impact pressure. -/
theorem tas2cas_spec (v h dT : ℝ) : 0 ≤ tas2cas np v h dT ∧
    impactPressure 101325 1.225 (tas2cas np v h dT) =
      impactPressure (pressure np h dT) (density np h dT) v := by
  have hp := pressure_pos h dT
  have hr := density_pos h dT
  have hq := impact_nonneg hp hr v
  have e : tas2cas np v h dT = Real.sqrt (7 * 101325 / 1.225 *
      ((1 + impactPressure (pressure np h dT) (density np h dT) v / 101325) ^
        (2.0 / 7.0 : ℝ) - 1)) := by
    simp only [tas2cas, pressure, density, impactPressure]
    simp only [np, p0, rho0]
    norm_num [pow_two, mul_assoc, add_comm]
  rw [e]
  exact ⟨Real.sqrt_nonneg _, impact_solve (by norm_num) (by norm_num) hq⟩

/-- Impact pressure in terms of Mach number: `γ p / ρ = a²`. -/
theorem impact_mach (m h dT : ℝ) :
    impactPressure (pressure np h dT) (density np h dT) (m * vsound np h dT) =
      pressure np h dT * F (0.2 * m ^ 2) := by
  have hr := density_pos h dT
  have ht := temp_pos h dT
  rw [impact_eq]
  congr 2
  rw [mul_pow, vsound_eq, Real.sq_sqrt (by positivity), pressure_eq, temperature_eq]
  field_simp
  ring

end Verif.Aero
