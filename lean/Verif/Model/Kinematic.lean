import Verif.Model.Construct

/-!
# `openap/kinematic.py`

The query methods of class `WRAP` (`/repo/openap/kinematic.py:65-215`). Each asks the table for
one variable. The statistical model and its parameters, which are returned as well, are not
modelled.
-/

namespace Verif.Kinematic
open Verif.Tables

/-- `_get_var`, `kinematic.py:65-81`: the first row of that variable. -/
def getVar (w : List WrapRow) (var : Str) : Except PyError WrapRow :=
  match w.find? fun r => r.var == var with
  | some r => .ok r
  | none => .error .valueError

/-- Variable read by `takeoff_speed`, `kinematic.py:82-84`: `"to_v_lof"`. -/
def takeoffSpeed : Str := [116, 111, 95, 118, 95, 108, 111, 102]
/-- Variable read by `takeoff_distance`, `kinematic.py:86-88`: `"to_d_tof"`. -/
def takeoffDistance : Str := [116, 111, 95, 100, 95, 116, 111, 102]
/-- Variable read by `takeoff_acceleration`, `kinematic.py:90-92`: `"to_acc_tof"`. -/
def takeoffAcceleration : Str := [116, 111, 95, 97, 99, 99, 95, 116, 111, 102]
/-- Variable read by `initclimb_vcas`, `kinematic.py:94-96`: `"ic_va_avg"`. -/
def initclimbVcas : Str := [105, 99, 95, 118, 97, 95, 97, 118, 103]
/-- Variable read by `initclimb_vs`, `kinematic.py:98-100`: `"ic_vs_avg"`. -/
def initclimbVs : Str := [105, 99, 95, 118, 115, 95, 97, 118, 103]
/-- Variable read by `climb_range`, `kinematic.py:102-104`: `"cl_d_range"`. -/
def climbRange : Str := [99, 108, 95, 100, 95, 114, 97, 110, 103, 101]
/-- Variable read by `climb_const_vcas`, `kinematic.py:106-108`: `"cl_v_cas_const"`. -/
def climbConstVcas : Str := [99, 108, 95, 118, 95, 99, 97, 115, 95, 99, 111, 110, 115, 116]
/-- Variable read by `climb_const_mach`, `kinematic.py:110-112`: `"cl_v_mach_const"`. -/
def climbConstMach : Str := [99, 108, 95, 118, 95, 109, 97, 99, 104, 95, 99, 111, 110, 115, 116]
/-- Variable read by `climb_cross_alt_concas`, `kinematic.py:114-116`: `"cl_h_cas_const"`. -/
def climbCrossAltConcas : Str := [99, 108, 95, 104, 95, 99, 97, 115, 95, 99, 111, 110, 115, 116]
/-- Variable read by `climb_cross_alt_conmach`, `kinematic.py:118-120`: `"cl_h_mach_const"`. -/
def climbCrossAltConmach : Str := [99, 108, 95, 104, 95, 109, 97, 99, 104, 95, 99, 111, 110, 115, 116]
/-- Variable read by `climb_vs_pre_concas`, `kinematic.py:122-124`: `"cl_vs_avg_pre_cas"`. -/
def climbVsPreConcas : Str := [99, 108, 95, 118, 115, 95, 97, 118, 103, 95, 112, 114, 101, 95, 99, 97, 115]
/-- Variable read by `climb_vs_concas`, `kinematic.py:126-128`: `"cl_vs_avg_cas_const"`. -/
def climbVsConcas : Str := [99, 108, 95, 118, 115, 95, 97, 118, 103, 95, 99, 97, 115, 95, 99, 111, 110, 115, 116]
/-- Variable read by `climb_vs_conmach`, `kinematic.py:130-132`: `"cl_vs_avg_mach_const"`. -/
def climbVsConmach : Str := [99, 108, 95, 118, 115, 95, 97, 118, 103, 95, 109, 97, 99, 104, 95, 99, 111, 110, 115, 116]
/-- Variable read by `cruise_range`, `kinematic.py:134-136`: `"cr_d_range"`. -/
def cruiseRange : Str := [99, 114, 95, 100, 95, 114, 97, 110, 103, 101]
/-- Variable read by `cruise_alt`, `kinematic.py:138-140`: `"cr_h_mean"`. -/
def cruiseAlt : Str := [99, 114, 95, 104, 95, 109, 101, 97, 110]
/-- Variable read by `cruise_init_alt`, `kinematic.py:142-144`: `"cr_h_init"`. -/
def cruiseInitAlt : Str := [99, 114, 95, 104, 95, 105, 110, 105, 116]
/-- Variable read by `cruise_max_alt`, `kinematic.py:146-147`: `"cr_h_max"`. -/
def cruiseMaxAlt : Str := [99, 114, 95, 104, 95, 109, 97, 120]
/-- Variable read by `cruise_mach`, `kinematic.py:149-151`: `"cr_v_mach_mean"`. -/
def cruiseMach : Str := [99, 114, 95, 118, 95, 109, 97, 99, 104, 95, 109, 101, 97, 110]
/-- Variable read by `cruise_max_mach`, `kinematic.py:153-154`: `"cr_v_mach_max"`. -/
def cruiseMaxMach : Str := [99, 114, 95, 118, 95, 109, 97, 99, 104, 95, 109, 97, 120]
/-- Variable read by `cruise_mean_vcas`, `kinematic.py:156-157`: `"cr_v_cas_mean"`. -/
def cruiseMeanVcas : Str := [99, 114, 95, 118, 95, 99, 97, 115, 95, 109, 101, 97, 110]
/-- Variable read by `descent_range`, `kinematic.py:159-161`: `"de_d_range"`. -/
def descentRange : Str := [100, 101, 95, 100, 95, 114, 97, 110, 103, 101]
/-- Variable read by `descent_const_mach`, `kinematic.py:163-165`: `"de_v_mach_const"`. -/
def descentConstMach : Str := [100, 101, 95, 118, 95, 109, 97, 99, 104, 95, 99, 111, 110, 115, 116]
/-- Variable read by `descent_const_vcas`, `kinematic.py:167-169`: `"de_v_cas_const"`. -/
def descentConstVcas : Str := [100, 101, 95, 118, 95, 99, 97, 115, 95, 99, 111, 110, 115, 116]
/-- Variable read by `descent_cross_alt_conmach`, `kinematic.py:171-173`: `"de_h_mach_const"`. -/
def descentCrossAltConmach : Str := [100, 101, 95, 104, 95, 109, 97, 99, 104, 95, 99, 111, 110, 115, 116]
/-- Variable read by `descent_cross_alt_concas`, `kinematic.py:175-177`: `"de_h_cas_const"`. -/
def descentCrossAltConcas : Str := [100, 101, 95, 104, 95, 99, 97, 115, 95, 99, 111, 110, 115, 116]
/-- Variable read by `descent_vs_conmach`, `kinematic.py:179-181`: `"de_vs_avg_mach_const"`. -/
def descentVsConmach : Str := [100, 101, 95, 118, 115, 95, 97, 118, 103, 95, 109, 97, 99, 104, 95, 99, 111, 110, 115, 116]
/-- Variable read by `descent_vs_concas`, `kinematic.py:183-185`: `"de_vs_avg_cas_const"`. -/
def descentVsConcas : Str := [100, 101, 95, 118, 115, 95, 97, 118, 103, 95, 99, 97, 115, 95, 99, 111, 110, 115, 116]
/-- Variable read by `descent_vs_post_concas`, `kinematic.py:187-189`: `"de_vs_avg_after_cas"`. -/
def descentVsPostConcas : Str := [100, 101, 95, 118, 115, 95, 97, 118, 103, 95, 97, 102, 116, 101, 114, 95, 99, 97, 115]
/-- Variable read by `finalapp_vcas`, `kinematic.py:191-193`: `"fa_va_avg"`. -/
def finalappVcas : Str := [102, 97, 95, 118, 97, 95, 97, 118, 103]
/-- Variable read by `finalapp_vs`, `kinematic.py:195-197`: `"fa_vs_avg"`. -/
def finalappVs : Str := [102, 97, 95, 118, 115, 95, 97, 118, 103]
/-- Variable read by `landing_speed`, `kinematic.py:199-201`: `"ld_v_app"`. -/
def landingSpeed : Str := [108, 100, 95, 118, 95, 97, 112, 112]
/-- Variable read by `landing_distance`, `kinematic.py:203-205`: `"ld_d_brk"`. -/
def landingDistance : Str := [108, 100, 95, 100, 95, 98, 114, 107]
/-- Variable read by `landing_acceleration`, `kinematic.py:207-209`: `"ld_acc_brk"`. -/
def landingAcceleration : Str := [108, 100, 95, 97, 99, 99, 95, 98, 114, 107]

/-- The variables read by the query methods. -/
def queries : List Str :=
  [takeoffSpeed,
   takeoffDistance,
   takeoffAcceleration,
   initclimbVcas,
   initclimbVs,
   climbRange,
   climbConstVcas,
   climbConstMach,
   climbCrossAltConcas,
   climbCrossAltConmach,
   climbVsPreConcas,
   climbVsConcas,
   climbVsConmach,
   cruiseRange,
   cruiseAlt,
   cruiseInitAlt,
   cruiseMaxAlt,
   cruiseMach,
   cruiseMaxMach,
   cruiseMeanVcas,
   descentRange,
   descentConstMach,
   descentConstVcas,
   descentCrossAltConmach,
   descentCrossAltConcas,
   descentVsConmach,
   descentVsConcas,
   descentVsPostConcas,
   finalappVcas,
   finalappVs,
   landingSpeed,
   landingDistance,
   landingAcceleration]

end Verif.Kinematic
