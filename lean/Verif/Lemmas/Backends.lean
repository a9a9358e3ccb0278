import Verif.Model.Geo
import Verif.Model.Fuel
import Verif.Model.Emission

/-! Agreement of the backends, function by function. -/
namespace Verif
open Aero

theorem jax_eq : jax = np := rfl

theorem clip_casadi {x lo hi : ℝ} (h : lo ≤ hi) : casadi.clip x lo hi = np.clip x lo hi := by
  change max lo (min x hi) = min (max x lo) hi
  rw [max_min_distrib_left, max_comm lo x, max_eq_right h]

theorem atmos_casadi : atmos casadi = atmos np := by
  funext h dT
  simp only [atmos]
  rw [clip_casadi (by norm_num)]
  rfl

theorem temperature_casadi : temperature casadi = temperature np := by
  funext h dT; simp only [temperature, atmos_casadi]
theorem pressure_casadi : pressure casadi = pressure np := by
  funext h dT; simp only [pressure, atmos_casadi]
theorem density_casadi : density casadi = density np := by
  funext h dT; simp only [density, atmos_casadi]
theorem vsound_casadi : vsound casadi = vsound np := by
  funext h dT; simp only [vsound, temperature_casadi]; rfl
theorem hIsa_casadi : hIsa casadi = hIsa np := rfl
theorem tas2mach_casadi : tas2mach casadi = tas2mach np := by
  funext v h dT; simp only [tas2mach, vsound_casadi]
theorem mach2tas_casadi : mach2tas casadi = mach2tas np := by
  funext v h dT; simp only [mach2tas, vsound_casadi]
theorem eas2tas_casadi : eas2tas casadi = eas2tas np := by
  funext v h dT; simp only [eas2tas, density_casadi]; rfl
theorem tas2eas_casadi : tas2eas casadi = tas2eas np := by
  funext v h dT; simp only [tas2eas, density_casadi]; rfl
theorem cas2tas_casadi : cas2tas casadi = cas2tas np := by
  funext v h dT; simp only [cas2tas, atmos_casadi]; rfl
theorem tas2cas_casadi : tas2cas casadi = tas2cas np := by
  funext v h dT; simp only [tas2cas, atmos_casadi]; rfl
theorem mach2cas_casadi : mach2cas casadi = mach2cas np := by
  funext v h dT; simp only [mach2cas, tas2cas_casadi, mach2tas_casadi]
theorem cas2mach_casadi : cas2mach casadi = cas2mach np := by
  funext v h dT; simp only [cas2mach, cas2tas_casadi, tas2mach_casadi]
theorem crossoverAlt_casadi : crossoverAlt casadi = crossoverAlt np := rfl

theorem solarZenith_casadi : Geo.solarZenith casadi = Geo.solarZenith np := by
  funext lat lon t
  simp only [Geo.solarZenith]
  rw [clip_casadi (by norm_num)]
  rfl

theorem cl_casadi : Drag.cl casadi = Drag.cl np := by
  funext ac m v h vs dT; simp only [Drag.cl, density_casadi]; rfl
theorem calcDrag_casadi : Drag.calcDrag casadi = Drag.calcDrag np := by
  funext ac m v h c k vs dT; simp only [Drag.calcDrag, cl_casadi]
theorem waveDrag_casadi : Drag.waveDrag casadi = Drag.waveDrag np := by
  funext ac m v h dT; simp only [Drag.waveDrag, cl_casadi, tas2mach_casadi]; rfl
theorem clean_casadi : Drag.clean casadi = Drag.clean np := by
  funext ac p w m v h vs dT; simp only [Drag.clean, waveDrag_casadi, calcDrag_casadi]
theorem nonclean_casadi : Drag.nonclean casadi = Drag.nonclean np := by
  funext ac p m v h f vs dT g; simp only [Drag.nonclean, calcDrag_casadi]; rfl

theorem thrustTakeoff_casadi : Thrust.takeoff casadi = Thrust.takeoff np := by
  funext e v h dT; simp only [Thrust.takeoff, tas2mach_casadi, pressure_casadi]; rfl
theorem climb_casadi : Thrust.climb casadi = Thrust.climb np := by
  funext e v h r dT
  simp only [Thrust.climb, tas2mach_casadi, pressure_casadi, tas2cas_casadi, mach2cas_casadi]
  rfl
theorem cruise_casadi : Thrust.cruise casadi = Thrust.cruise np := by
  funext e v h dT; simp only [Thrust.cruise, climb_casadi]
theorem descentIdle_casadi : Thrust.descentIdle casadi = Thrust.descentIdle np := by
  funext e v h dT; simp only [Thrust.descentIdle, thrustTakeoff_casadi]

theorem atThrust_casadi : Fuel.atThrust casadi = Fuel.atThrust np := rfl
theorem fuelTakeoff_casadi : Fuel.takeoff casadi = Fuel.takeoff np := by
  funext f e v h t; simp only [Fuel.takeoff, thrustTakeoff_casadi, atThrust_casadi]
theorem enroute_casadi : Fuel.enroute casadi = Fuel.enroute np := by
  funext f ac p w m v h vs a dT l
  simp only [Fuel.enroute, Fuel.enrouteThrust, clean_casadi, atThrust_casadi]
  rfl
theorem fl2sl_casadi : Emission.fl2sl casadi = Emission.fl2sl np := by
  funext e f v h dT; simp only [Emission.fl2sl, temperature_casadi, tas2mach_casadi]; rfl

end Verif
