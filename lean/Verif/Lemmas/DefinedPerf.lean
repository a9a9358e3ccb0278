import Verif.Lemmas.Defined

/-! Definedness of the geodesy and performance models. -/
namespace Verif.Defined
open Verif.NR Verif.Aero Verif.Spec

theorem deg2rad_def : Geo.deg2rad npNR = val (Geo.deg2rad np) := by
  simp only [Geo.deg2rad, b_pi, val_sci]
  rw [val_div _ _ (by norm_num)]; rfl
theorem rad2deg_def : Geo.rad2deg npNR = val (Geo.rad2deg np) := by
  simp only [Geo.rad2deg, b_pi, val_sci]
  rw [val_div _ _ Real.pi_ne_zero]; rfl

theorem distance_def (a l c m h : ℝ) :
    Geo.distance npNR (val a) (val l) (val c) (val m) (val h) =
      val (Geo.distance np a l c m h) := by
  obtain ⟨b1, b2⟩ := Geo.inner_bounds a l c m
  have hv := Geo.haversine_eq a l c m
  have e2 : (2.0 : ℝ) = 2 := by norm_num
  simp only [Geo.distance, deg2rad_def, val_mul, val_sub, val_sci, b_cos, Geo.mul_deg2rad,
    Geo.rEarth]
  rw [val_div _ _ (by norm_num), val_div _ _ (by norm_num)]
  simp only [b_sin]
  rw [val_pow _ _ (by norm_num), val_pow _ _ (by norm_num)]
  simp only [val_mul, val_add, e2]
  rw [hv, b_sqrt (by linarith), b_arcsin]
  · simp only [val_mul]
    simp only [np, hv]
  · constructor
    · have := Real.sqrt_nonneg ((1 - (Real.cos (rad a) * Real.cos (rad c) * Real.cos (rad m - rad l) +
        Real.sin (rad a) * Real.sin (rad c))) / 2)
      linarith
    · rw [Real.sqrt_le_one]
      linarith

theorem bearing_def (a l c m : ℝ) : Geo.bearing npNR (val a) (val l) (val c) (val m) =
    val (Geo.bearing np a l c m) := by
  simp only [Geo.bearing, deg2rad_def, rad2deg_def, val_mul, val_sub, val_sci, b_cos, b_sin,
    b_arctan2, val_add]
  rw [b_fmod (by norm_num)]; rfl

theorem latlon_def (lat lon d brg h : ℝ) (hh : 6371000 + h ≠ 0) :
    Geo.latlon npNR (val lat) (val lon) (val d) (val brg) (val h) =
      (val (Geo.latlon np lat lon d brg h).1, val (Geo.latlon np lat lon d brg h).2) := by
  have hh' : (6371000.0 + h : ℝ) ≠ 0 := by norm_num; exact hh
  have hu := Geo.travel_unit (rad lat) (d / (6371000.0 + h)) (rad brg)
  simp only [Geo.latlon, deg2rad_def, rad2deg_def, val_mul, val_sub, val_sci, b_cos, b_sin,
    Geo.rEarth, val_add, Geo.mul_deg2rad]
  rw [val_div _ _ hh']
  simp only [b_cos, b_sin, val_mul, val_add]
  rw [b_arcsin]
  · simp only [b_sin, val_mul, val_sub, b_arctan2, val_add, val_mul]
    rfl
  · constructor <;> nlinarith

/-! ## Records -/

/-- A record of real numbers as a record of `NR` values. -/
def liftAirframe (a : Drag.Airframe ℝ) : Drag.Airframe NR :=
  ⟨val a.area, val a.span, val a.sweep, a.tc.map val, val a.mtow, a.rear⟩
/-- The same for drag polars. -/
def liftPolar (p : Drag.Polar ℝ) : Drag.Polar NR :=
  ⟨val p.cd0, val p.k, val p.lambdaF, val p.cfc, val p.sfs⟩
/-- The same for thrust parameters. -/
def liftThrust (p : Thrust.Params ℝ) : Thrust.Params NR :=
  ⟨val p.cruiseAlt, val p.bpr, val p.maxThrust, val p.number, val p.cruiseMach,
    val p.cruiseThrust⟩
/-- The same for fuel parameters. -/
def liftFuel (p : Fuel.Params ℝ) : Fuel.Params NR :=
  ⟨val p.scale, val p.c1, val p.c2, val p.c3, val p.maxThrust, val p.number⟩
/-- The same for emission parameters. -/
def liftEmission (p : Emission.Params ℝ) : Emission.Params NR :=
  ⟨val p.number, fun k => val (p.ff k), fun k => val (p.nox k), fun k => val (p.co k),
    fun k => val (p.hc k)⟩

/-! ## Drag -/

theorem cl_def (ac : Drag.Airframe ℝ) (m v h vs dT : ℝ) :
    Drag.cl npNR (liftAirframe ac) (val m) (val v) (val h) (val vs) (val dT) =
      (val (Drag.cl np ac m v h vs dT).1, val (Drag.cl np ac m v h vs dT).2) := by
  simp only [Drag.cl, kts, ft, fpm, g0, val_sci, val_mul, density_def, b_arctan2, b_cos,
    liftAirframe]
  rw [val_pow _ _ (by norm_num)]
  simp only [val_mul, b_max]
  rw [val_div]
  · rfl
  · exact (lt_of_lt_of_le (by norm_num) (le_max_right _ _)).ne'

theorem calcDrag_def (ac : Drag.Airframe ℝ) (m v h cd0 k vs dT : ℝ) :
    Drag.calcDrag npNR (liftAirframe ac) (val m) (val v) (val h) (val cd0) (val k) (val vs)
      (val dT) = val (Drag.calcDrag np ac m v h cd0 k vs dT) := by
  simp only [Drag.calcDrag, cl_def]
  rw [val_pow _ _ (by norm_num)]
  rfl

theorem waveDrag_def (ac : Drag.Airframe ℝ) (hs : Real.cos (ac.sweep * Real.pi / 180) ≠ 0)
    (m v h dT : ℝ) : Drag.waveDrag npNR (liftAirframe ac) (val m) (val v) (val h) (val dT) =
      val (Drag.waveDrag np ac m v h dT) := by
  have hs' : Real.cos (ac.sweep * Real.pi / 180.0) ≠ 0 := by
    rwa [show (180.0 : ℝ) = 180 by norm_num]
  have htc : (liftAirframe ac).tc.getD (val 0.12) = val (ac.tc.getD 0.12) := by
    cases ac with
    | mk A S sw tc mt rear => cases tc <;> rfl
  have h0 : (0.0 : NR) = val 0.0 := rfl
  simp only [Drag.waveDrag, kts, ft, val_sci, val_mul, tas2mach_def, cl_def, Drag.machCrit, htc]
  have hsw : (liftAirframe ac).sweep = val ac.sweep := rfl
  rw [hsw, b_pi, val_mul, val_div _ (180.0) (by norm_num)]
  simp only [b_cos]
  rw [val_pow _ _ (by norm_num), val_pow _ _ (by norm_num), val_div _ _ hs',
    val_div _ _ (pow_ne_zero _ hs'), val_div _ _ (pow_ne_zero _ hs')]
  simp only [val_sub, b_max]
  rw [val_pow _ _ (by norm_num), val_mul]
  rfl

theorem clean_def (ac : Drag.Airframe ℝ) (pol : Drag.Polar ℝ) (wave : Bool)
    (hs : wave = true → Real.cos (ac.sweep * Real.pi / 180) ≠ 0) (m v h vs dT : ℝ) :
    Drag.clean npNR (liftAirframe ac) (liftPolar pol) wave (val m) (val v) (val h) (val vs)
      (val dT) = val (Drag.clean np ac pol wave m v h vs dT) := by
  have e1 : (liftPolar pol).cd0 = val pol.cd0 := rfl
  have e2 : (liftPolar pol).k = val pol.k := rfl
  cases wave
  · simp only [Drag.clean, Bool.false_eq_true, if_false, val_sci, e1, e2, val_add, calcDrag_def]
  · simp only [Drag.clean, if_true, waveDrag_def ac (hs rfl), e1, e2, val_add, calcDrag_def]

theorem nonclean_def (ac : Drag.Airframe ℝ) (pol : Drag.Polar ℝ) (hA : ac.area ≠ 0)
    (hm : 0 < ac.mtow) (hc : 0 < pol.cfc) (hk : pol.k ≠ 0) (flap : ℝ)
    (hd : 1 / pol.k + Real.pi * (ac.span ^ 2 / ac.area) *
      ((if ac.rear then 0.0046 else 0.0026) * flap) ≠ 0) (m v h vs dT : ℝ) (gear : Bool) :
    Drag.nonclean npNR (liftAirframe ac) (liftPolar pol) (val m) (val v) (val h) (val flap)
      (val vs) (val dT) gear = val (Drag.nonclean np ac pol m v h flap vs dT gear) := by
  have hf : Drag.flapCd npNR (liftPolar pol) (val flap) = val (Drag.flapCd np pol flap) := by
    simp only [Drag.flapCd, liftPolar, val_sci, b_pi, val_mul]
    rw [b_power hc, val_div _ _ (by norm_num), b_sin, val_pow _ _ (by norm_num)]
    rfl
  have hg : Drag.gearCd npNR (liftAirframe ac) = val (Drag.gearCd np ac) := by
    simp only [Drag.gearCd, liftAirframe, val_sci, g0, val_mul, val_neg]
    rw [b_power hm, val_div _ _ hA]
    rfl
  have hK : Drag.flapK npNR (liftAirframe ac) (liftPolar pol) (val flap) =
      val (Drag.flapK np ac pol flap) := by
    have hd' : 1.0 / pol.k + Real.pi * (ac.span ^ 2 / ac.area) *
      (if ac.rear = true then 0.0046 * flap else 0.0026 * flap) ≠ 0 := by
      rw [show (1.0 : ℝ) = 1 by norm_num]
      convert hd using 3
      split_ifs <;> rfl
    have hite : (if ac.rear = true then val (0.0046 * flap) else val (0.0026 * flap)) =
        val (if ac.rear = true then 0.0046 * flap else 0.0026 * flap) := by split_ifs <;> rfl
    have e1 : (liftAirframe ac).rear = ac.rear := rfl
    have e2 : (liftAirframe ac).span = val ac.span := rfl
    have e3 : (liftAirframe ac).area = val ac.area := rfl
    simp only [Drag.flapK, e1, e2, e3, liftPolar, val_sci, b_pi, val_mul, hite]
    rw [val_pow _ _ (by norm_num), val_div _ _ hA, val_div _ _ hk]
    simp only [val_mul, val_add]
    rw [val_div _ _ hd']
    rfl
  have e1 : (liftPolar pol).cd0 = val pol.cd0 := rfl
  cases gear
  · simp only [Drag.nonclean, Bool.false_eq_true, if_false, hf, hK, e1, val_sci, val_add,
      calcDrag_def]
  · simp only [Drag.nonclean, if_true, hf, hK, hg, e1, val_add, calcDrag_def]

/-! ## Thrust -/

theorem takeoff_def (e : Thrust.Params ℝ) (hb : 0 ≤ e.bpr) (v h dT : ℝ) :
    Thrust.takeoff npNR (liftThrust e) (val v) (val h) (val dT) =
      val (Thrust.takeoff np e v h dT) := by
  have hG : 0 < (1.0 + 0.82 * e.bpr) * (0.0606 * e.bpr + 0.6337) := by positivity
  simp only [Thrust.takeoff, Thrust.takeoffRatio, kts, ft, p0, val_sci, val_mul, tas2mach_def,
    pressure_def, liftThrust]
  rw [val_div _ _ (by norm_num)]
  simp only [val_add, val_mul, val_neg]
  rw [val_pow _ _ (by norm_num), val_pow _ _ (by norm_num), val_pow _ _ (by norm_num),
    b_sqrt hG.le, b_sqrt hb, val_div _ _ (Real.sqrt_pos.2 hG).ne']
  rfl

theorem climb_def (e : Thrust.Params ℝ) (hM : 0 < e.cruiseMach)
    (hF : e.cruiseThrust * e.number ≠ 0) (v h roc dT : ℝ) :
    Thrust.climb npNR (liftThrust e) (val v) (val h) (val roc) (val dT) =
      val (Thrust.climb np e v h roc dT) := by
  have hv : 0 < max 10.0 v * 0.514444 := by
    have := le_max_left 10.0 v
    have : (0:ℝ) < max 10.0 v := lt_of_lt_of_le (by norm_num) this
    positivity
  have hc := Thrust.tas2cas_pos hv (h * 0.3048) dT
  have hr : 0 < mach2cas np e.cruiseMach (e.cruiseAlt * 0.3048) dT :=
    Thrust.tas2cas_pos (mul_pos hM (vsound_pos _ _)) _ _
  have hm : 0 < tas2mach np (max 10.0 v * 0.514444) (h * 0.3048) dT :=
    div_pos hv (vsound_pos _ _)
  have hP := pressure_pos (h * 0.3048) dT
  have hPc := pressure_pos (e.cruiseAlt * 0.3048) dT
  have hP1 := pressure_pos (10000.0 * 0.3048) dT
  simp only [Thrust.climb, liftThrust, kts, ft, val_sci, b_max, b_abs, val_mul, tas2mach_def,
    tas2cas_def, pressure_def, mach2cas_def, Thrust.dfunc, Thrust.nfunc, Thrust.mfunc, val_neg]
  rw [val_div _ _ hM.ne', val_div _ _ hr.ne', val_div _ _ hPc.ne', val_div _ _ hPc.ne',
    val_pow _ _ (by norm_num), b_log (by positivity), b_power (by positivity),
    b_power (by positivity)]
  simp only [val_mul, val_add, val_sub]
  rw [b_power (by positivity), b_power (by positivity)]
  simp only [val_mul]
  rw [val_div _ _ hF]
  simp only [val_sub, val_add, val_mul]
  rw [b_where, b_where]
  rfl

theorem cruise_def (e : Thrust.Params ℝ) (hM : 0 < e.cruiseMach)
    (hF : e.cruiseThrust * e.number ≠ 0) (v h dT : ℝ) :
    Thrust.cruise npNR (liftThrust e) (val v) (val h) (val dT) =
      val (Thrust.cruise np e v h dT) := climb_def e hM hF v h 0.0 dT

theorem descentIdle_def (e : Thrust.Params ℝ) (hb : 0 ≤ e.bpr) (v h dT : ℝ) :
    Thrust.descentIdle npNR (liftThrust e) (val v) (val h) (val dT) =
      val (Thrust.descentIdle np e v h dT) := by
  rw [Thrust.descentIdle, takeoff_def e hb]; rfl

/-! ## Fuel -/

theorem atThrust_def (f : Fuel.Params ℝ) (h1 : 0 < f.c1) (h2 : f.c2 ≠ 0) (hn : f.number ≠ 0)
    (hm : f.maxThrust ≠ 0) (T : ℝ) :
    Fuel.atThrust npNR (liftFuel f) (val T) = val (Fuel.atThrust np f T) := by
  have hl : 0 < Real.log (1.0 + Real.exp 50.0) := by
    apply Real.log_pos
    have := Real.exp_pos 50.0
    linarith
  simp only [Fuel.atThrust, Fuel.limiter, Fuel.funcFuel, liftFuel, val_sci]
  rw [val_div _ _ hn, val_div _ _ hm]
  simp only [val_sub, val_mul, b_exp, val_add, val_neg]
  rw [b_log (by positivity), b_log (by positivity), b_log (by positivity), b_log h1, val_sub,
    val_div _ _ hl.ne', val_div _ _ h2]
  simp only [val_sub, val_mul, b_exp, val_add, val_neg]
  rfl

theorem enroute_def (f : Fuel.Params ℝ) (h1 : 0 < f.c1) (h2 : f.c2 ≠ 0) (hn : f.number ≠ 0)
    (hm : f.maxThrust ≠ 0) (ac : Drag.Airframe ℝ) (pol : Drag.Polar ℝ) (wave : Bool)
    (hs : wave = true → Real.cos (ac.sweep * Real.pi / 180) ≠ 0) (m v h vs acc dT : ℝ)
    (lim : Bool) :
    Fuel.enroute npNR (liftFuel f) (liftAirframe ac) (liftPolar pol) wave (val m) (val v) (val h)
      (val vs) (val acc) (val dT) lim = val (Fuel.enroute np f ac pol wave m v h vs acc dT lim) := by
  simp only [Fuel.enroute, Fuel.enrouteThrust, clean_def ac pol wave hs, kts, fpm, val_sci, val_mul,
    b_arctan2, b_sin, val_add, atThrust_def f h1 h2 hn hm]
  rfl

/-! ## Emissions -/

theorem fl2sl_def (q : Emission.Params ℝ) (hn : q.number ≠ 0) (ffac v alt dT : ℝ)
    (ha : 0.0019812 * alt < 288.15) :
    Emission.fl2sl npNR (liftEmission q) (val ffac) (val v) (val alt) (val dT) =
      (val (Emission.fl2sl np q ffac v alt dT).1, val (Emission.fl2sl np q ffac v alt dT).2) := by
  have hT := temperature_pos (alt * 0.3048) dT
  have hd : 0 < 1.0 - 0.0019812 * alt / 288.15 := by
    rw [sub_pos, div_lt_iff₀ (by norm_num)]; linarith
  have hb := Real.exp_pos (0.2 * tas2mach np (v * 0.514444) (alt * 0.3048) dT ^ 2)
  simp only [Emission.fl2sl, liftEmission, kts, ft, val_sci, val_mul, tas2mach_def,
    temperature_def]
  rw [val_pow _ _ (by norm_num)]
  simp only [val_mul, b_exp]
  rw [val_div _ (288.15) (by norm_num), val_div _ (288.15) (by norm_num), val_sub,
    val_div _ _ hb.ne', b_power hd, b_power hb, val_div _ _ (by positivity),
    b_power (by positivity), b_power (by positivity), val_mul,
    val_div ((1.0 - 0.0019812 * alt / 288.15) ^ (5.255876 : ℝ)) _ (by positivity),
    b_power (by positivity), val_div _ _ (by positivity), val_mul, val_div _ _ (by positivity)]
  rfl

theorem ratio_pos (q : Emission.Params ℝ) (ffac v alt dT : ℝ)
    (ha : 0.0019812 * alt < 288.15) : 0 < (Emission.fl2sl np q ffac v alt dT).2 := by
  have hT := temperature_pos (alt * 0.3048) dT
  have hd : 0 < 1.0 - 0.0019812 * alt / 288.15 := by
    rw [sub_pos, div_lt_iff₀ (by norm_num)]; linarith
  have hb := Real.exp_pos (0.2 * tas2mach np (v * 0.514444) (alt * 0.3048) dT ^ 2)
  have : 0 < (temperature np (alt * 0.3048) dT / 288.15 /
      Real.exp (0.2 * tas2mach np (v * 0.514444) (alt * 0.3048) dT ^ 2)) ^ (3.3 : ℝ) /
    ((1.0 - 0.0019812 * alt / 288.15) ^ (5.255876 : ℝ) /
      Real.exp (0.2 * tas2mach np (v * 0.514444) (alt * 0.3048) dT ^ 2) ^ (3.5 : ℝ)) ^
        (1.02 : ℝ) := by positivity
  exact this

theorem nox_def (q : Emission.Params ℝ) (hn : q.number ≠ 0) (ffac v alt dT : ℝ)
    (ha : 0.0019812 * alt < 288.15) :
    Emission.nox npNR (liftEmission q) (val ffac) (val v) (val alt) (val dT) =
      val (Emission.nox np q ffac v alt dT) := by
  have hr := ratio_pos q ffac v alt dT ha
  simp only [Emission.nox, fl2sl_def q hn ffac v alt dT ha, Emission.lto]
  simp only [liftEmission, b_interp4, val_sci, val_sub, val_mul, val_neg, b_exp]
  rw [val_div _ _ hr.ne', b_sqrt (by positivity)]
  rfl

theorem co_def (q : Emission.Params ℝ) (hn : q.number ≠ 0) (ffac v alt dT : ℝ)
    (ha : 0.0019812 * alt < 288.15) :
    Emission.co npNR (liftEmission q) (val ffac) (val v) (val alt) (val dT) =
      val (Emission.co np q ffac v alt dT) := by
  simp only [Emission.co, fl2sl_def q hn ffac v alt dT ha, Emission.lto]
  simp only [liftEmission, b_interp4, val_mul]
  rfl

theorem hc_def (q : Emission.Params ℝ) (hn : q.number ≠ 0) (ffac v alt dT : ℝ)
    (ha : 0.0019812 * alt < 288.15) :
    Emission.hc npNR (liftEmission q) (val ffac) (val v) (val alt) (val dT) =
      val (Emission.hc np q ffac v alt dT) := by
  simp only [Emission.hc, fl2sl_def q hn ffac v alt dT ha, Emission.lto]
  simp only [liftEmission, b_interp4, val_mul]
  rfl

end Verif.Defined
