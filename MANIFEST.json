{
 "claims": [
  {
   "property": "C01",
   "status": "proved",
   "theorems": [
    "Verif.Props.C01_atmos_physical"
   ],
   "note": "All real h, dT; also shows no NaN arises."
  },
  {
   "property": "C02",
   "status": "proved",
   "theorems": [
    "Verif.Props.C02_atmos_decreasing"
   ],
   "note": ""
  },
  {
   "property": "C03",
   "status": "proved",
   "theorems": [
    "Verif.Props.C03_isa_profile"
   ],
   "note": ""
  },
  {
   "property": "C04",
   "status": "proved",
   "theorems": [
    "Verif.Props.C04_hydrostatic",
    "Verif.Props.C04_not_hydrostatic_warm_stratosphere"
   ],
   "note": "Second theorem: the standard-day restriction in the stratosphere is needed."
  },
  {
   "property": "C05",
   "status": "proved",
   "theorems": [
    "Verif.Props.C05_pressure_altitude",
    "Verif.Props.C05_fails_with_shift"
   ],
   "note": ""
  },
  {
   "property": "C06",
   "status": "proved",
   "theorems": [
    "Verif.Props.C06_hIsa_decreasing",
    "Verif.Props.C06_fails_at_switch"
   ],
   "note": ""
  },
  {
   "property": "C07",
   "status": "proved",
   "theorems": [
    "Verif.Props.C07_round_trips",
    "Verif.Props.C07_cas_is_calibrated"
   ],
   "note": ""
  },
  {
   "property": "C08",
   "status": "proved",
   "theorems": [
    "Verif.Props.C08_increasing"
   ],
   "note": ""
  },
  {
   "property": "C09",
   "status": "proved",
   "theorems": [
    "Verif.Props.C09_eas_le_cas_le_tas"
   ],
   "note": ""
  },
  {
   "property": "C10",
   "status": "proved",
   "theorems": [
    "Verif.Props.C10_climb_at_constant_speed"
   ],
   "note": ""
  },
  {
   "property": "C100",
   "status": "proved",
   "theorems": [
    "Verif.Props.C100_extremes_dropped",
    "Verif.Props.C100_raises",
    "Verif.Props.C100_unknown_name"
   ],
   "note": "SciPy's distributions are arbitrary functions."
  },
  {
   "property": "C101",
   "status": "proved",
   "theorems": [
    "Verif.Props.C101_cannot_construct",
    "Verif.Props.C101_thrust_raises"
   ],
   "note": ""
  },
  {
   "property": "C102",
   "status": "proved",
   "theorems": [
    "Verif.Props.C102_fuel_coefficients",
    "Verif.Props.C102_fuel_scale",
    "Verif.Props.C102_no_row"
   ],
   "note": ""
  },
  {
   "property": "C103",
   "status": "proved",
   "theorems": [
    "Verif.Props.C103_synonym",
    "Verif.Props.C103_engine_options",
    "Verif.Props.C103_shipped_synonyms",
    "Verif.Props.C103_constructors",
    "Verif.Props.C103_wrap"
   ],
   "note": ""
  },
  {
   "property": "C104",
   "status": "proved",
   "theorems": [
    "Verif.Props.C104_noise"
   ],
   "note": "The random generator is an arbitrary stream of standard normals."
  },
  {
   "property": "C105",
   "status": "proved",
   "theorems": [
    "Verif.Props.C105_opf",
    "Verif.Props.C105_errors",
    "Verif.Props.C105_defaults",
    "Verif.Props.C105_spill"
   ],
   "note": "Python's float on the matched words is an arbitrary partial function; texts are ASCII."
  },
  {
   "property": "C106",
   "status": "proved",
   "theorems": [
    "Verif.Props.C106_engine_type",
    "Verif.Props.C106_engine_number",
    "Verif.Props.C106_no_block"
   ],
   "note": ""
  },
  {
   "property": "C107",
   "status": "proved",
   "theorems": [
    "Verif.Props.C107_first_line",
    "Verif.Props.C107_unknown",
    "Verif.Props.C107_no_slash",
    "Verif.Props.C107_letter_case",
    "Verif.Props.C107_lines",
    "Verif.Props.C107_load"
   ],
   "note": ""
  },
  {
   "property": "C108",
   "status": "proved",
   "theorems": [
    "Verif.Props.C108_high",
    "Verif.Props.C108_high_falls",
    "Verif.Props.C108_middle",
    "Verif.Props.C108_climb_rate",
    "Verif.Props.C108_low"
   ],
   "note": ""
  },
  {
   "property": "C109",
   "status": "proved",
   "theorems": [
    "Verif.Props.C109_formula",
    "Verif.Props.C109_offset",
    "Verif.Props.C109_table",
    "Verif.Props.C109_offset_list",
    "Verif.Props.C109_lengths"
   ],
   "note": "NumPy supplied as sci; exact real arithmetic with NaN."
  },
  {
   "property": "C11",
   "status": "proved",
   "theorems": [
    "Verif.Props.C11_crossover"
   ],
   "note": ""
  },
  {
   "property": "C110",
   "status": "proved",
   "theorems": [
    "Verif.Props.C110_formula",
    "Verif.Props.C110_lists",
    "Verif.Props.C110_continuous",
    "Verif.Props.C110_compressibility"
   ],
   "note": "NumPy supplied as sci."
  },
  {
   "property": "C111",
   "status": "proved",
   "theorems": [
    "Verif.Props.C111_formula",
    "Verif.Props.C111_lists",
    "Verif.Props.C111_not_limited",
    "Verif.Props.C111_missing",
    "Verif.Props.C111_zero_heating"
   ],
   "note": "NumPy supplied as sci."
  },
  {
   "property": "C112",
   "status": "proved",
   "theorems": [
    "Verif.Props.C112_choice",
    "Verif.Props.C112_case",
    "Verif.Props.C112_order",
    "Verif.Props.C112_paths",
    "Verif.Props.C112_thrust",
    "Verif.Props.C112_drag",
    "Verif.Props.C112_fuel"
   ],
   "note": "Codes without glob wildcards; Python's float is an arbitrary partial function; XML parsing itself is not modelled."
  },
  {
   "property": "C113",
   "status": "proved",
   "theorems": [
    "Verif.Props.C113_indices",
    "Verif.Props.C113_descent",
    "Verif.Props.C113_cruise"
   ],
   "note": ""
  },
  {
   "property": "C114",
   "status": "proved",
   "theorems": [
    "Verif.Props.C114_climb",
    "Verif.Props.C114_descent",
    "Verif.Props.C114_cruise"
   ],
   "note": ""
  },
  {
   "property": "C115",
   "status": "proved",
   "theorems": [
    "Verif.Props.C115_atmosphere",
    "Verif.Props.C115_airspeed",
    "Verif.Props.C115_distance",
    "Verif.Props.C115_drag",
    "Verif.Props.C115_drag_at_rest",
    "Verif.Props.C115_thrust",
    "Verif.Props.C115_fuel",
    "Verif.Props.C115_emission"
   ],
   "note": "NumPy backend over the reals."
  },
  {
   "property": "C116",
   "status": "proved",
   "theorems": [
    "Verif.Props.C116_fuel_ch",
    "Verif.Props.C116_shipped"
   ],
   "note": ""
  },
  {
   "property": "C117",
   "status": "proved",
   "theorems": [
    "Verif.Props.C117_errors",
    "Verif.Props.C117_point",
    "Verif.Props.C117_arrays"
   ],
   "note": "xarray's linear interp is modelled; missing values in the file are not."
  },
  {
   "property": "C118",
   "status": "proved",
   "theorems": [
    "Verif.Props.C118_atmosphere",
    "Verif.Props.C118_airspeed",
    "Verif.Props.C118_altitudes",
    "Verif.Props.C118_distance",
    "Verif.Props.C118_bearing",
    "Verif.Props.C118_destination",
    "Verif.Props.C118_drag",
    "Verif.Props.C118_thrust",
    "Verif.Props.C118_fuel",
    "Verif.Props.C118_emission",
    "Verif.Props.C118_tropopause",
    "Verif.Props.C118_zero_speed"
   ],
   "note": "Forward mode; the differentiation rules of the JAX primitives (Prelude/Dual) are trusted; exact arithmetic. Data records carry no tangent."
  },
  {
   "property": "C119",
   "status": "proved",
   "theorems": [
    "Verif.Props.C119_arrive",
    "Verif.Props.C119_track",
    "Verif.Props.C119_between",
    "Verif.Props.C119_continue"
   ],
   "note": ""
  },
  {
   "property": "C12",
   "status": "proved",
   "theorems": [
    "Verif.Props.C12_crossover_consistent"
   ],
   "note": ""
  },
  {
   "property": "C120",
   "status": "proved",
   "theorems": [
    "Verif.Props.C120_min_drag",
    "Verif.Props.C120_min_fuel",
    "Verif.Props.C120_same_eas",
    "Verif.Props.C120_faster"
   ],
   "note": "Exact arithmetic; NumPy backend."
  },
  {
   "property": "C121",
   "status": "proved",
   "theorems": [
    "Verif.Props.C121_atmosphere",
    "Verif.Props.C121_speeds",
    "Verif.Props.C121_calibrated",
    "Verif.Props.C121_drag",
    "Verif.Props.C121_distance",
    "Verif.Props.C121_fuel",
    "Verif.Props.C121_fuel_models",
    "Verif.Props.C121_float64",
    "Verif.Props.C121_float32",
    "Verif.Props.C121_takeoff",
    "Verif.Props.C121_gases",
    "Verif.Props.C121_indices",
    "Verif.Props.C121_engines",
    "Verif.Props.C121_crossover",
    "Verif.Props.C121_crossover_float64",
    "Verif.Props.C121_crossover_float32",
    "Verif.Props.C121_distance_far",
    "Verif.Props.C121_distance_far_float64",
    "Verif.Props.C121_pressure_altitude",
    "Verif.Props.C121_pressure_altitude_float64",
    "Verif.Props.C121_pressure_altitude_float32"
   ],
   "note": "the functions of the model run on a carrier that rounds every literal and operation; inputs are real numbers, so also representable ones; wave drag off for drag and fuel flow in flight"
  },
  {
   "property": "C122",
   "status": "proved",
   "theorems": [
    "Verif.Props.C122_aero",
    "Verif.Props.C122_geo",
    "Verif.Props.C122_drag",
    "Verif.Props.C122_thrust",
    "Verif.Props.C122_fuel",
    "Verif.Props.C122_emission"
   ],
   "note": "simplifications that CasADi and XLA make on the graph are not modelled"
  },
  {
   "property": "C123",
   "status": "proved",
   "theorems": [
    "Verif.Props.C123_input",
    "Verif.Props.C123_partials",
    "Verif.Props.C123_atmosphere",
    "Verif.Props.C123_airspeed",
    "Verif.Props.C123_altitudes",
    "Verif.Props.C123_distance",
    "Verif.Props.C123_bearing",
    "Verif.Props.C123_destination",
    "Verif.Props.C123_drag",
    "Verif.Props.C123_thrust",
    "Verif.Props.C123_fuel",
    "Verif.Props.C123_emission"
   ],
   "note": "The partial derivatives that JAX and CasADi attach to their primitives (Prelude/Gradient) are trusted; exact arithmetic. Data records are not differentiated."
  },
  {
   "property": "C124",
   "status": "proved",
   "theorems": [
    "Verif.Props.C124_thrust",
    "Verif.Props.C124_emission",
    "Verif.Props.C124_drag",
    "Verif.Props.C124_wrap",
    "Verif.Props.C124_fuel_flow",
    "Verif.Props.C124_illegal",
    "Verif.Props.C124_aircraft",
    "Verif.Props.C124_unread_keywords",
    "Verif.Props.C124_subclasses",
    "Verif.Props.C124_get_backend"
   ],
   "note": "Values of other Python types are not modelled; record selection is that of Model/Construct."
  },
  {
   "property": "C125",
   "status": "proved",
   "theorems": [
    "Verif.Props.C125_unread_keywords",
    "Verif.Props.C125_m_cr",
    "Verif.Props.C125_values",
    "Verif.Props.C125_documented_call"
   ],
   "note": "Keyword values are numbers and booleans."
  },
  {
   "property": "C126",
   "status": "proved",
   "theorems": [
    "Verif.Props.C126_time_shift",
    "Verif.Props.C126_local",
    "Verif.Props.C126_append",
    "Verif.Props.C126_repeated",
    "Verif.Props.C126_time_unit"
   ],
   "note": "Exact arithmetic; the last window of a recording gets NA (C60)."
  },
  {
   "property": "C127",
   "status": "proved",
   "theorems": [
    "Verif.Props.C127_same_eas",
    "Verif.Props.C127_higher_is_further",
    "Verif.Props.C127_scaling",
    "Verif.Props.C127_below_min_drag",
    "Verif.Props.C127_no_best_speed"
   ],
   "note": "Exact arithmetic; NumPy backend."
  },
  {
   "property": "C128",
   "status": "proved",
   "theorems": [
    "Verif.Props.C128_at_thrust",
    "Verif.Props.C128_double",
    "Verif.Props.C128_single",
    "Verif.Props.C128_enroute",
    "Verif.Props.C128_slow",
    "Verif.Props.C128_shipped"
   ],
   "note": "The code violates the property; the theorems say exactly where. IEEE infinities and NaN with exact finite arithmetic (Prelude/Overflow); rounding is C121; underflow is not modelled; wave drag off."
  },
  {
   "property": "C129",
   "status": "proved",
   "theorems": [
    "Verif.Props.C129_drag",
    "Verif.Props.C129_thrust",
    "Verif.Props.C129_fuel",
    "Verif.Props.C129_emission",
    "Verif.Props.C129_column_drag",
    "Verif.Props.C129_column_fuel",
    "Verif.Props.C129_gear"
   ],
   "note": "The code violates the property; the theorems say which shapes work and what columns return. NumPy backend; broadcasting, squeezing and the decorator at every nested call are modelled (Prelude/Shaped, Model/Decorated)."
  },
  {
   "property": "C13",
   "status": "proved",
   "theorems": [
    "Verif.Props.C13_distance_metric"
   ],
   "note": ""
  },
  {
   "property": "C130",
   "status": "proved",
   "theorems": [
    "Verif.Props.C130_drag",
    "Verif.Props.C130_thrust",
    "Verif.Props.C130_fuel",
    "Verif.Props.C130_emission",
    "Verif.Props.C130_scalar_drag",
    "Verif.Props.C130_scalar_thrust",
    "Verif.Props.C130_scalar_fuel",
    "Verif.Props.C130_scalar_emission"
   ],
   "note": "The code violates the second part; the theorems say exactly for which arguments. Values are real numbers; tracers are JAX values of shape (); integer arguments, which jax.grad rejects, are not told from floats."
  },
  {
   "property": "C131",
   "status": "proved",
   "theorems": [
    "Verif.Props.C131_drag",
    "Verif.Props.C131_thrust",
    "Verif.Props.C131_climb",
    "Verif.Props.C131_squares",
    "Verif.Props.C131_fuel",
    "Verif.Props.C131_emission",
    "Verif.Props.C131_nox",
    "Verif.Props.C131_co2",
    "Verif.Props.C131_python"
   ],
   "note": "The code violates the statement for climb thrust, NOx, CO2 and water. Proved: equality with the float results wherever the integer operations are exact, the exact error of the climb thrust and that it is positive, the bounds on the NOx factor, the wrapped values of CO2 and water, and the exceptions. The most negative value of a signed type is left out for climb thrust."
  },
  {
   "property": "C132",
   "status": "proved",
   "theorems": [
    "Verif.Props.C132_nan",
    "Verif.Props.C132_exact",
    "Verif.Props.C132_single",
    "Verif.Props.C132_double",
    "Verif.Props.C132_enroute",
    "Verif.Props.C132_shipped"
   ],
   "note": "The code violates the statement; proved where the derivatives are right and where they are NaN. Numbers are exact below the overflow threshold; derivative rules are those of jax.lax and CasADi. Between 1.78 and 1.81 (14.2 and 14.23) times the maximum thrust C132_nan and C132_exact say which it is, except where the exponential lies in [Omega - 1, Omega). Drag without wave drag."
  },
  {
   "property": "C133",
   "status": "proved",
   "theorems": [
    "Verif.Props.C133_drag",
    "Verif.Props.C133_thrust",
    "Verif.Props.C133_fuel",
    "Verif.Props.C133_emission"
   ],
   "note": "Exact arithmetic; arrays with more than one axis are in C129 and C130."
  },
  {
   "property": "C134",
   "status": "proved",
   "theorems": [
    "Verif.Props.C134_humidity",
    "Verif.Props.C134_supersaturation"
   ],
   "note": "The code violates the statement; proved by what factor. The true value uses the code's two gas constants and its saturation pressures."
  },
  {
   "property": "C135",
   "status": "proved",
   "theorems": [
    "Verif.Props.C135_water",
    "Verif.Props.C135_ice"
   ],
   "note": "Exact arithmetic; the inequalities between the fit and the slope of the saturation curve are proved by interval arithmetic over the whole range, evaluated by the kernel."
  },
  {
   "property": "C136",
   "status": "proved",
   "theorems": [
    "Verif.Props.C136_climb",
    "Verif.Props.C136_descent",
    "Verif.Props.C136_shipped",
    "Verif.Props.C136_small_jets"
   ],
   "note": "Exact arithmetic. A limit that the aircraft file does not state (no vmo for gl5t, glf5, glf6, lj45) is not checked. Random parameters and noise are outside the statement."
  },
  {
   "property": "C137",
   "status": "proved",
   "theorems": [
    "Verif.Props.C137_climb",
    "Verif.Props.C137_descent",
    "Verif.Props.C137_cruise",
    "Verif.Props.C137_slow",
    "Verif.Props.C137_level",
    "Verif.Props.C137_runway",
    "Verif.Props.C137_generated"
   ],
   "note": "Exact arithmetic; situations between the listed ones (rates of climb from 10 to 300 ft/min, altitudes from 0 to 200 ft) are decided by C59 only."
  },
  {
   "property": "C138",
   "status": "proved",
   "theorems": [
    "Verif.Props.C138_cruise_balance"
   ],
   "note": "Exact arithmetic; one flight condition per type (the file's cruise height and Mach number)."
  },
  {
   "property": "C139",
   "status": "proved",
   "theorems": [
    "Verif.Props.C139_idle_below_drag",
    "Verif.Props.C139_rated"
   ],
   "note": "Exact arithmetic."
  },
  {
   "property": "C14",
   "status": "proved",
   "theorems": [
    "Verif.Props.C14_destination_distance"
   ],
   "note": ""
  },
  {
   "property": "C140",
   "status": "proved",
   "theorems": [
    "Verif.Props.C140_nautical_miles",
    "Verif.Props.C140_kilometres",
    "Verif.Props.C140_no_range"
   ],
   "note": "Exact arithmetic; one flight condition per type (the file's cruise height and Mach number); constant mass within one comparison, every mass allowed."
  },
  {
   "property": "C141",
   "status": "proved",
   "theorems": [
    "Verif.Props.C141_nox",
    "Verif.Props.C141_co",
    "Verif.Props.C141_hc"
   ],
   "note": "Exact arithmetic. For NOx, CO and HC the exceptions are characterised in both directions."
  },
  {
   "property": "C142",
   "status": "proved",
   "theorems": [
    "Verif.Props.C142_history",
    "Verif.Props.C142_undisturbed",
    "Verif.Props.C142_thrust_fixed",
    "Verif.Props.C142_own_records",
    "Verif.Props.C142_shared",
    "Verif.Props.C142_change",
    "Verif.Props.C142_change_aircraft",
    "Verif.Props.C142_thrust_later"
   ],
   "note": "Induction over programs on a heap model of the mutable records. Rebinding attributes of an object is not modelled; an exception is caught by the program."
  },
  {
   "property": "C143",
   "status": "proved",
   "theorems": [
    "Verif.Props.C143_top_of_climb"
   ],
   "note": "Closed forms in the mass, interval arithmetic in the kernel for the shipped numbers of each type, strict monotonicity and the intermediate value theorem for all masses."
  },
  {
   "property": "C144",
   "status": "proved",
   "theorems": [
    "Verif.Props.C144_stages",
    "Verif.Props.C144_labels"
   ],
   "note": "Windows that straddle two parts are decided by C59 only. Time steps above 300 s are excluded in the labels because distance monotonicity (C56) is used for the order of the rows."
  },
  {
   "property": "C145",
   "status": "proved",
   "theorems": [
    "Verif.Props.C145_rows"
   ],
   "note": "Overflow is modelled as in C128 (values beyond the threshold become infinite; rounding is not modelled). Rows between 5 and 25 kt are left open: the fuel model overflows on them for some types and masses and not for others."
  },
  {
   "property": "C146",
   "status": "proved",
   "theorems": [
    "Verif.Props.C146_contents",
    "Verif.Props.C146_shared",
    "Verif.Props.C146_available",
    "Verif.Props.C146_separate"
   ],
   "note": "The key of a call is modelled after functools._make_key for strings, integers and booleans; other argument types and unknown keywords are not modelled."
  },
  {
   "property": "C147",
   "status": "proved",
   "theorems": [
    "Verif.Props.C147_climb",
    "Verif.Props.C147_descent",
    "Verif.Props.C147_climb_shipped",
    "Verif.Props.C147_descent_shipped"
   ],
   "note": "Real arithmetic. The level rows after the climb (60 s) and the landing roll are not part of the table."
  },
  {
   "property": "C148",
   "status": "proved",
   "theorems": [
    "Verif.Props.C148_table",
    "Verif.Props.C148_polar",
    "Verif.Props.C148_wrap",
    "Verif.Props.C148_leaves",
    "Verif.Props.C148_everywhere",
    "Verif.Props.C148_only",
    "Verif.Props.C148_only_models",
    "Verif.Props.C148_inside",
    "Verif.Props.C148_brackets"
   ],
   "note": "The disk is a list of files by absolute path; no symbolic links, empty directories or permissions. What is read is the content of the file; that it may not be an aircraft record is not modelled."
  },
  {
   "property": "C149",
   "status": "proved",
   "theorems": [
    "Verif.Props.C149_climb",
    "Verif.Props.C149_level",
    "Verif.Props.C149_descent",
    "Verif.Props.C149_landing",
    "Verif.Props.C149_climb_shipped",
    "Verif.Props.C149_descent_shipped"
   ],
   "note": "Real arithmetic, enable_noise off. The general theorem for descents asks for a bound of the slope of the speeds where the deceleration begins, which is proved to exist for the shipped tables."
  },
  {
   "property": "C15",
   "status": "proved",
   "theorems": [
    "Verif.Props.C15_destination_bearing"
   ],
   "note": ""
  },
  {
   "property": "C150",
   "status": "proved",
   "theorems": [
    "Verif.Props.C150_clock",
    "Verif.Props.C150_climb",
    "Verif.Props.C150_descent",
    "Verif.Props.C150_cruise",
    "Verif.Props.C150_stall",
    "Verif.Props.C150_exact",
    "Verif.Props.C150_climb_shipped",
    "Verif.Props.C150_descent_shipped",
    "Verif.Props.C150_cruise_shipped",
    "Verif.Props.C150_setup_exact",
    "Verif.Props.C150_climb_default",
    "Verif.Props.C150_descent_default",
    "Verif.Props.C150_cruise_default"
   ],
   "note": "enable_noise and random off; the general statements are about the numbers in memory when the loop begins, those for the default flights include the setup."
  },
  {
   "property": "C16",
   "status": "proved",
   "theorems": [
    "Verif.Props.C16_bearing_compass"
   ],
   "note": ""
  },
  {
   "property": "C17",
   "status": "proved",
   "theorems": [
    "Verif.Props.C17_destination_bounded",
    "Verif.Props.C17_not_normalised"
   ],
   "note": ""
  },
  {
   "property": "C18",
   "status": "proved",
   "theorems": [
    "Verif.Props.C18_solar_zenith"
   ],
   "note": ""
  },
  {
   "property": "C19",
   "status": "proved",
   "theorems": [
    "Verif.Props.C19_backends_agree"
   ],
   "note": ""
  },
  {
   "property": "C20",
   "status": "proved",
   "theorems": [
    "Verif.Props.C20_agree_inside",
    "Verif.Props.C20_differ_outside"
   ],
   "note": ""
  },
  {
   "property": "C21",
   "status": "proved",
   "theorems": [
    "Verif.Props.C21_aero_elementwise",
    "Verif.Props.C21_geo_elementwise",
    "Verif.Props.C21_performance_elementwise"
   ],
   "note": ""
  },
  {
   "property": "C22",
   "status": "proved",
   "theorems": [
    "Verif.Props.C22_numpy_nan",
    "Verif.Props.C22_numpy_nan_performance",
    "Verif.Props.C22_climb_rate_unused_high",
    "Verif.Props.C22_casadi_hides_nan"
   ],
   "note": ""
  },
  {
   "property": "C23",
   "status": "proved",
   "theorems": [
    "Verif.Props.C23_decorated",
    "Verif.Props.C23_nests",
    "Verif.Props.C23_pass_through"
   ],
   "note": "Regular arrays and lists of numbers; object arrays are not modelled."
  },
  {
   "property": "C24",
   "status": "proved",
   "theorems": [
    "Verif.Props.C24_drag_positive"
   ],
   "note": ""
  },
  {
   "property": "C25",
   "status": "proved",
   "theorems": [
    "Verif.Props.C25_drag_mass"
   ],
   "note": ""
  },
  {
   "property": "C26",
   "status": "proved",
   "theorems": [
    "Verif.Props.C26_nonclean",
    "Verif.Props.C26_flaps_can_reduce_drag"
   ],
   "note": ""
  },
  {
   "property": "C27",
   "status": "proved",
   "theorems": [
    "Verif.Props.C27_wave_drag"
   ],
   "note": ""
  },
  {
   "property": "C28",
   "status": "proved",
   "theorems": [
    "Verif.Props.C28_fuel_bounded"
   ],
   "note": ""
  },
  {
   "property": "C29",
   "status": "proved",
   "theorems": [
    "Verif.Props.C29_fuel_increasing"
   ],
   "note": ""
  },
  {
   "property": "C30",
   "status": "proved",
   "theorems": [
    "Verif.Props.C30_limiter"
   ],
   "note": ""
  },
  {
   "property": "C31",
   "status": "proved",
   "theorems": [
    "Verif.Props.C31_enroute_signs"
   ],
   "note": ""
  },
  {
   "property": "C32",
   "status": "proved",
   "theorems": [
    "Verif.Props.C32_limit_flag_ignored",
    "Verif.Props.C32_no_thrust_cap"
   ],
   "note": ""
  },
  {
   "property": "C33",
   "status": "proved",
   "theorems": [
    "Verif.Props.C33_default_altitude_raises",
    "Verif.Props.C33_takeoff_explicit"
   ],
   "note": ""
  },
  {
   "property": "C34",
   "status": "proved",
   "theorems": [
    "Verif.Props.C34_takeoff_thrust"
   ],
   "note": ""
  },
  {
   "property": "C35",
   "status": "proved",
   "theorems": [
    "Verif.Props.C35_climb_continuous",
    "Verif.Props.C35_step_at_30000"
   ],
   "note": ""
  },
  {
   "property": "C36",
   "status": "proved",
   "theorems": [
    "Verif.Props.C36_climb_symmetries"
   ],
   "note": ""
  },
  {
   "property": "C37",
   "status": "proved",
   "theorems": [
    "Verif.Props.C37_every_aircraft_constructs",
    "Verif.Props.C37_fuel_flow_is_a_number",
    "Verif.Props.C37_without_synonyms",
    "Verif.Props.C37_engine_options"
   ],
   "note": "Complete shipped tables, transcribed by tools/gen_data.py."
  },
  {
   "property": "C38",
   "status": "proved",
   "theorems": [
    "Verif.Props.C38_proportional"
   ],
   "note": ""
  },
  {
   "property": "C39",
   "status": "proved",
   "theorems": [
    "Verif.Props.C39_bounded_by_table"
   ],
   "note": ""
  },
  {
   "property": "C40",
   "status": "proved",
   "theorems": [
    "Verif.Props.C40_certification_points"
   ],
   "note": ""
  },
  {
   "property": "C41",
   "status": "proved",
   "theorems": [
    "Verif.Props.C41_mass_between"
   ],
   "note": ""
  },
  {
   "property": "C42",
   "status": "proved",
   "theorems": [
    "Verif.Props.C42_load_factor",
    "Verif.Props.C42_a332_above_mtow"
   ],
   "note": ""
  },
  {
   "property": "C43",
   "status": "proved",
   "theorems": [
    "Verif.Props.C43_humidity"
   ],
   "note": ""
  },
  {
   "property": "C44",
   "status": "proved",
   "theorems": [
    "Verif.Props.C44_saturation",
    "Verif.Props.C44_crossing"
   ],
   "note": ""
  },
  {
   "property": "C45",
   "status": "proved",
   "theorems": [
    "Verif.Props.C45_threshold",
    "Verif.Props.C45_default"
   ],
   "note": ""
  },
  {
   "property": "C46",
   "status": "proved",
   "theorems": [
    "Verif.Props.C46_shortwave"
   ],
   "note": "At zenith exactly 90 degrees the real formula divides by zero; not claimed."
  },
  {
   "property": "C47",
   "status": "proved",
   "theorems": [
    "Verif.Props.C47_longwave"
   ],
   "note": ""
  },
  {
   "property": "C48",
   "status": "proved",
   "theorems": [
    "Verif.Props.C48_optical_table",
    "Verif.Props.C48_optical_monotone"
   ],
   "note": ""
  },
  {
   "property": "C49",
   "status": "proved",
   "theorems": [
    "Verif.Props.C49_time"
   ],
   "note": ""
  },
  {
   "property": "C50",
   "status": "proved",
   "theorems": [
    "Verif.Props.C50_climb",
    "Verif.Props.C50_climb_shipped"
   ],
   "note": ""
  },
  {
   "property": "C51",
   "status": "proved",
   "theorems": [
    "Verif.Props.C51_levels_off",
    "Verif.Props.C51_low_request_ignored"
   ],
   "note": ""
  },
  {
   "property": "C52",
   "status": "proved",
   "theorems": [
    "Verif.Props.C52_descent",
    "Verif.Props.C52_descent_shipped"
   ],
   "note": ""
  },
  {
   "property": "C53",
   "status": "proved",
   "theorems": [
    "Verif.Props.C53_cruise"
   ],
   "note": ""
  },
  {
   "property": "C54",
   "status": "proved",
   "theorems": [
    "Verif.Props.C54_range_in_metres"
   ],
   "note": ""
  },
  {
   "property": "C55",
   "status": "proved",
   "theorems": [
    "Verif.Props.C55_complete_arguments"
   ],
   "note": ""
  },
  {
   "property": "C56",
   "status": "proved",
   "theorems": [
    "Verif.Props.C56_complete_continuous"
   ],
   "note": ""
  },
  {
   "property": "C57",
   "status": "proved",
   "theorems": [
    "Verif.Props.C57_draws",
    "Verif.Props.C57_quiet_calls",
    "Verif.Props.C57_noise_draws"
   ],
   "note": "The bit generator is abstract; the state it is left in by a call that raises is not modelled."
  },
  {
   "property": "C58",
   "status": "proved",
   "theorems": [
    "Verif.Props.C58_one_label_per_sample"
   ],
   "note": ""
  },
  {
   "property": "C59",
   "status": "proved",
   "theorems": [
    "Verif.Props.C59_strongest_phase",
    "Verif.Props.C59_missing_altitude"
   ],
   "note": ""
  },
  {
   "property": "C60",
   "status": "proved",
   "theorems": [
    "Verif.Props.C60_last_window_unlabelled"
   ],
   "note": ""
  },
  {
   "property": "C61",
   "status": "proved",
   "theorems": [
    "Verif.Props.C61_never_too_many",
    "Verif.Props.C61_unsorted_loses_labels"
   ],
   "note": ""
  },
  {
   "property": "C62",
   "status": "proved",
   "theorems": [
    "Verif.Props.C62_rejected_data_kept",
    "Verif.Props.C62_empty_rejected_unchanged",
    "Verif.Props.C62_unusable_afterwards"
   ],
   "note": ""
  },
  {
   "property": "C63",
   "status": "proved",
   "theorems": [
    "Verif.Props.C63_takeoff_indices",
    "Verif.Props.C63_landing_indices"
   ],
   "note": "Data without NaN."
  },
  {
   "property": "C64",
   "status": "proved",
   "theorems": [
    "Verif.Props.C64_feet",
    "Verif.Props.C64_gauss",
    "Verif.Props.C64_assertion",
    "Verif.Props.C64_equal_feet",
    "Verif.Props.C64_missing",
    "Verif.Props.C64_numbers"
   ],
   "note": ""
  },
  {
   "property": "C65",
   "status": "proved",
   "theorems": [
    "Verif.Props.C65_sortxy",
    "Verif.Props.C65_borderline"
   ],
   "note": ""
  },
  {
   "property": "C66",
   "status": "proved",
   "theorems": [
    "Verif.Props.C66_simplefill",
    "Verif.Props.C66_whole_seconds",
    "Verif.Props.C66_fractional_times_ignored"
   ],
   "note": ""
  },
  {
   "property": "C67",
   "status": "proved",
   "theorems": [
    "Verif.Props.C67_constructor",
    "Verif.Props.C67_reproduces_polynomials",
    "Verif.Props.C67_short_signals",
    "Verif.Props.C67_negative_deriv"
   ],
   "note": "Interpolation off, times already sorted."
  },
  {
   "property": "C68",
   "status": "proved",
   "theorems": [
    "Verif.Props.C68_taylor_coefficient",
    "Verif.Props.C68_derivative_negated"
   ],
   "note": ""
  },
  {
   "property": "C69",
   "status": "proved",
   "theorems": [
    "Verif.Props.C69_shape",
    "Verif.Props.C69_constant",
    "Verif.Props.C69_division_by_zero",
    "Verif.Props.C69_regular_sampling_breaks",
    "Verif.Props.C69_unbounded"
   ],
   "note": ""
  },
  {
   "property": "C70",
   "status": "proved",
   "theorems": [
    "Verif.Props.C70_case_insensitive",
    "Verif.Props.C70_engine_first_match",
    "Verif.Props.C70_aircraft_exact"
   ],
   "note": "ASCII strings."
  },
  {
   "property": "C71",
   "status": "proved",
   "theorems": [
    "Verif.Props.C71_search_implies_engine",
    "Verif.Props.C71_search_listing",
    "Verif.Props.C71_search_misses_mixed_case"
   ],
   "note": ""
  },
  {
   "property": "C72",
   "status": "proved",
   "theorems": [
    "Verif.Props.C72_engine_record_shared",
    "Verif.Props.C72_engine_record_forgotten",
    "Verif.Props.C72_aircraft_record_fresh"
   ],
   "note": ""
  },
  {
   "property": "C73",
   "status": "proved",
   "theorems": [
    "Verif.Props.C73_engine_accepted_iff",
    "Verif.Props.C73_prefix_of_option_rejected"
   ],
   "note": ""
  },
  {
   "property": "C74",
   "status": "proved",
   "theorems": [
    "Verif.Props.C74_closest_fix",
    "Verif.Props.C74_closest_airport"
   ],
   "note": ""
  },
  {
   "property": "C75",
   "status": "proved",
   "theorems": [
    "Verif.Props.C75_closest_fix_global",
    "Verif.Props.C75_no_airport_near",
    "Verif.Props.C75_wrong_at_high_latitude",
    "Verif.Props.C75_wrong_at_date_line",
    "Verif.Props.C75_shipped_wrong"
   ],
   "note": ""
  },
  {
   "property": "C76",
   "status": "proved",
   "theorems": [
    "Verif.Props.C76_test_data_are_training_data"
   ],
   "note": "SciPy's distributions are arbitrary functions."
  },
  {
   "property": "C77",
   "status": "proved",
   "theorems": [
    "Verif.Props.C77_drag_raises",
    "Verif.Props.C77_thrust_raises",
    "Verif.Props.C77_constructors",
    "Verif.Props.C77_fuel_raises",
    "Verif.Props.C77_drag_values",
    "Verif.Props.C77_drag_sign",
    "Verif.Props.C77_thrust_values",
    "Verif.Props.C77_fields"
   ],
   "note": ""
  },
  {
   "property": "C78",
   "status": "proved",
   "theorems": [
    "Verif.Props.C78_nominal_and_idle"
   ],
   "note": ""
  },
  {
   "property": "C79",
   "status": "proved",
   "theorems": [
    "Verif.Props.C79_merge_values",
    "Verif.Props.C79_merge_keys",
    "Verif.Props.C79_merge_idempotent"
   ],
   "note": ""
  },
  {
   "property": "C80",
   "status": "proved",
   "theorems": [
    "Verif.Props.C80_aero_finite",
    "Verif.Props.C80_geo_finite",
    "Verif.Props.C80_drag_finite",
    "Verif.Props.C80_engine_finite"
   ],
   "note": ""
  },
  {
   "property": "C81",
   "status": "proved",
   "theorems": [
    "Verif.Props.C81_deviation"
   ],
   "note": ""
  },
  {
   "property": "C82",
   "status": "proved",
   "theorems": [
    "Verif.Props.C82_exact_name"
   ],
   "note": ""
  },
  {
   "property": "C83",
   "status": "proved",
   "theorems": [
    "Verif.Props.C83_wildcards_accepted",
    "Verif.Props.C83_character_sets",
    "Verif.Props.C83_character_ranges",
    "Verif.Props.C83_bracket_first"
   ],
   "note": "Patterns with a slash, which leave the directory, are not modelled."
  },
  {
   "property": "C84",
   "status": "proved",
   "theorems": [
    "Verif.Props.C84_kinematic_queries"
   ],
   "note": ""
  },
  {
   "property": "C85",
   "status": "proved",
   "theorems": [
    "Verif.Props.C85_ice_threshold"
   ],
   "note": "brentq is represented by its contract: sign change required, some root in the bracket returned; numerical tolerance not modelled."
  },
  {
   "property": "C86",
   "status": "proved",
   "theorems": [
    "Verif.Props.C86_kinematically_consistent"
   ],
   "note": ""
  },
  {
   "property": "C87",
   "status": "proved",
   "theorems": [
    "Verif.Props.C87_segment_order",
    "Verif.Props.C87_climb_order_shipped"
   ],
   "note": ""
  },
  {
   "property": "C88",
   "status": "proved",
   "theorems": [
    "Verif.Props.C88_slow_descent_hangs",
    "Verif.Props.C88_slow_descent_hangs_shipped"
   ],
   "note": ""
  },
  {
   "property": "C89",
   "status": "proved",
   "theorems": [
    "Verif.Props.C89_integer_columns"
   ],
   "note": ""
  },
  {
   "property": "C90",
   "status": "proved",
   "theorems": [
    "Verif.Props.C90_constant_speeds"
   ],
   "note": ""
  },
  {
   "property": "C91",
   "status": "proved",
   "theorems": [
    "Verif.Props.C91_climb_reported_as_landing"
   ],
   "note": ""
  },
  {
   "property": "C92",
   "status": "proved",
   "theorems": [
    "Verif.Props.C92_defuzz",
    "Verif.Props.C92_mean_of_maxima",
    "Verif.Props.C92_letter_case",
    "Verif.Props.C92_defuzz_errors"
   ],
   "note": ""
  },
  {
   "property": "C93",
   "status": "proved",
   "theorems": [
    "Verif.Props.C93_interp_membership"
   ],
   "note": ""
  },
  {
   "property": "C94",
   "status": "proved",
   "theorems": [
    "Verif.Props.C94_affine_equivariance",
    "Verif.Props.C94_rising_line",
    "Verif.Props.C94_falling_line"
   ],
   "note": ""
  },
  {
   "property": "C95",
   "status": "proved",
   "theorems": [
    "Verif.Props.C95_causal",
    "Verif.Props.C95_affine"
   ],
   "note": ""
  },
  {
   "property": "C96",
   "status": "proved",
   "theorems": [
    "Verif.Props.C96_weights",
    "Verif.Props.C96_symmetric",
    "Verif.Props.C96_times"
   ],
   "note": "The SciPy spline fit is an arbitrary function."
  },
  {
   "property": "C97",
   "status": "proved",
   "theorems": [
    "Verif.Props.C97_airports_fresh",
    "Verif.Props.C97_fixes_frozen"
   ],
   "note": ""
  },
  {
   "property": "C98",
   "status": "proved",
   "theorems": [
    "Verif.Props.C98_airport",
    "Verif.Props.C98_fix",
    "Verif.Props.C98_unreachable_fixes"
   ],
   "note": ""
  },
  {
   "property": "C99",
   "status": "proved",
   "theorems": [
    "Verif.Props.C99_shipped_lookup",
    "Verif.Props.C99_missing_country"
   ],
   "note": "The table is generated from airports.csv by tools/gen_airports.py."
  }
 ]
}