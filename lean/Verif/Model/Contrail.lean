import Verif.Prelude.Backend
import Verif.Prelude.Py
import Mathlib.Analysis.SpecialFunctions.Trigonometric.DerivHyp

/-!
# `openap/contrail.py`

Module functions of `/repo/openap/contrail.py`, term by term, over the reals (the module calls
NumPy directly). `load_olr` is in `Model/Olr`.
-/

namespace Verif.Contrail

/-- `contrail.py:29`. -/
noncomputable def gasConstantWaterVapor : ℝ := 461.51
/-- `contrail.py:30`. -/
noncomputable def gasConstantDryAir : ℝ := 287.05
/-- `contrail.py:37`. -/
noncomputable def eiWater : ℝ := 1.2232
/-- `contrail.py:38`. -/
noncomputable def specAirHeatCapacity : ℝ := 1004
/-- `contrail.py:39`. -/
noncomputable def ratioMassWaterVaporAir : ℝ := 0.622
/-- `contrail.py:40`. -/
noncomputable def specCombustionHeat : ℝ := 43e6
/-- `contrail.py:43`. -/
noncomputable def defaultPropulsionEfficiency : ℝ := 0.4

/-- `saturation_pressure_over_water`, `contrail.py:51-80`. -/
noncomputable def satWater (T : ℝ) : ℝ :=
  Real.exp (54.842763 - 6763.22 / T - 4.210 * Real.log T + 0.000367 * T
    + Real.tanh (0.0415 * (T - 218.8))
      * (53.878 - 1331.22 / T - 9.44523 * Real.log T + 0.014025 * T))

/-- `saturation_pressure_over_ice`, `contrail.py:83-105`. -/
noncomputable def satIce (T : ℝ) : ℝ :=
  Real.exp (9.550426 - 5723.265 / T + 3.53068 * Real.log T - 0.00728332 * T)

/-- `relative_humidity`, `contrail.py:113-140`; `phase` is the parameter `to`, the
`assert` is an exception. -/
noncomputable def relativeHumidity (q p T : ℝ) (phase : String) : Except PyError ℝ :=
  if phase = "ice" ∨ phase = "water" then
    let sat := if phase = "ice" then satIce T else satWater T
    .ok (q * p * (gasConstantWaterVapor / gasConstantDryAir) / sat)
  else .error .assertionError

/-- `rhw2rhi`, `contrail.py:143-157`. -/
noncomputable def rhw2rhi (rhw T : ℝ) : ℝ := rhw * satWater T / satIce T

/-- `_isobaric_mixing_slope`, `contrail.py:165-184`. -/
noncomputable def mixingSlope (p eta : ℝ) : ℝ :=
  eiWater * specAirHeatCapacity * p
    / (ratioMassWaterVaporAir * specCombustionHeat * (1 - eta))

/-- The threshold formula of `contrail.py:209-214` and `249-254`. -/
noncomputable def thresholdWater (g : ℝ) : ℝ :=
  -46.46 + 9.43 * Real.log (g - 0.053) + 0.72 * Real.log (g - 0.053) ^ 2 + 273.15

/-- `critical_temperature_water`, `contrail.py:187-216`. NumPy's logarithm of a number that is
not positive is not a number: `nan` (of zero: `-inf`, the square is `inf`; not a usable number
either and also `nan` here). -/
noncomputable def criticalTemperatureWater (p : ℝ) (eta : ℝ := defaultPropulsionEfficiency) : NR :=
  if 0 < mixingSlope p eta - 0.053 then .val (thresholdWater (mixingSlope p eta)) else .nan

/-- `func` of `critical_temperature_water_and_ice`, `contrail.py:240-245`. -/
noncomputable def iceFunc (Tc Tw g : ℝ) : ℝ := satWater Tw - satIce Tc - (Tw - Tc) * g

/-- What `scipy.optimize.root_scalar(f, bracket=[a, b], method="brentq")` promises
(`contrail.py:256-262`): it raises unless `f a` and `f b` have different signs, and otherwise
returns some root in the bracket. Which root, and the numerical tolerance, are not modelled:
the result is a relation. -/
def BrentqReturns (f : ℝ → ℝ) (a b x : ℝ) : Prop :=
  f a * f b ≤ 0 ∧ x ∈ Set.uIcc a b ∧ f x = 0

/-- `critical_temperature_water_and_ice`, `contrail.py:219-264`, as a relation between the
arguments and the returned pair. -/
def CriticalReturns (p eta Tw Ti : ℝ) : Prop :=
  criticalTemperatureWater p eta = .val Tw ∧
    BrentqReturns (fun t => iceFunc t Tw (mixingSlope p eta)) 100 Tw Ti

/-- `rf_shortwave`, `contrail.py:272-332`. -/
noncomputable def rfShortwave (zenith tau tau_c : ℝ) : ℝ :=
  let tA := (0.879 : ℝ)
  let gamma_val := (0.242 : ℝ)
  let gamma_l := (0.323 : ℝ)
  let A_mu := (0.361 : ℝ)
  let B_mu := (1.676 : ℝ)
  let C_mu := (0.709 : ℝ)
  let Fr := (0.512 : ℝ)
  let delta_SR := (0.15 : ℝ)
  let delta_SC := (0.157 : ℝ)
  let delta_app_SC := (0.23 : ℝ)
  let S0 := (1361 : ℝ)
  let reff := (16 : ℝ)
  let Aeff := (0.2 : ℝ)
  let Fsw := 1 - Fr * (1 - Real.exp (-delta_SR * reff))
  let SDR := Real.cos (zenith * (Real.pi / 180)) * S0
  let mu := Real.cos (zenith * (Real.pi / 180))
  let tau_eff := tau * Fsw / mu
  let tau_c_eff := tau_c * Fsw / mu
  let F_mu := (1 - mu) ^ B_mu / (1 / 2) ^ B_mu - 1
  let R_c := 1 - Real.exp (-gamma_val * tau_eff)
  let alpha_c := R_c * (C_mu + A_mu * Real.exp (-gamma_l * tau_eff) * F_mu)
  let E_sw := Real.exp (delta_SC * tau_c - delta_app_SC * tau_c_eff)
  let rf := -SDR * (tA - Aeff) ^ 2 * alpha_c * E_sw
  if zenith > 90 then 0 else rf

/-- `rf_longwave`, `contrail.py:335-354`. -/
noncomputable def rfLongwave (olr temperature : ℝ) : ℝ :=
  max (olr - 1.935 * (temperature - 152)) 0

/-- `rf_net`, `contrail.py:357-375`. -/
noncomputable def rfNet (zenith tau tau_c olr temperature : ℝ) : ℝ :=
  rfShortwave zenith tau tau_c + rfLongwave olr temperature

/-- `np.searchsorted(bounds, age, side="right")` for increasing `bounds`: the number of entries
not greater than `age`. NumPy sorts `nan` after every number. -/
noncomputable def searchsortedRight (bounds : List ℝ) : NR → ℕ
  | .nan => bounds.length
  | .val x => (bounds.takeWhile fun b => decide (b ≤ x)).length

/-- `contrail_optical_properties`, `contrail.py:449-496`, on one age. -/
noncomputable def opticalProperties (age : NR) : ℝ × ℝ × ℝ :=
  let tau_values := [0.4, 0.6, 0.68, 0.70, (0.71 : ℝ)]
  let width_values := [500, 1500, 3500, 6500, (10500 : ℝ)]
  let tau_c_values := [0.36, 0.54, 0.612, 0.63, (0.639 : ℝ)]
  let hour_bounds := [1, 2, 4, (6 : ℝ)]
  let i := min (searchsortedRight hour_bounds age) (tau_values.length - 1)
  (tau_values.getD i 0, width_values.getD i 0, tau_c_values.getD i 0)

end Verif.Contrail
