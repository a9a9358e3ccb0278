c("C01", "proved", ["C01_atmos_physical"], "All real h, dT; also shows no NaN arises.")
c("C02", "proved", ["C02_atmos_decreasing"], "")
c("C03", "proved", ["C03_isa_profile"], "")
c("C04", "proved", ["C04_hydrostatic", "C04_not_hydrostatic_warm_stratosphere"], "Second theorem: the standard-day restriction in the stratosphere is needed.")
c("C05", "proved", ["C05_pressure_altitude", "C05_fails_with_shift"], "")
c("C06", "proved", ["C06_hIsa_decreasing", "C06_fails_at_switch"], "")
c("C07", "proved", ["C07_round_trips", "C07_cas_is_calibrated"], "")
c("C08", "proved", ["C08_increasing"], "")
c("C09", "proved", ["C09_eas_le_cas_le_tas"], "")
c("C10", "proved", ["C10_climb_at_constant_speed"], "")
c("C11", "proved", ["C11_crossover"], "")
c("C12", "proved", ["C12_crossover_consistent"], "")
c("C13", "proved", ["C13_distance_metric"], "")
c("C14", "proved", ["C14_destination_distance"], "")
c("C15", "proved", ["C15_destination_bearing"], "")
c("C16", "proved", ["C16_bearing_compass"], "")
c("C17", "proved", ["C17_destination_bounded", "C17_not_normalised"], "")
c("C18", "proved", ["C18_solar_zenith"], "")
c("C24", "proved", ["C24_drag_positive"], "")
c("C25", "proved", ["C25_drag_mass"], "")
c("C26", "proved", ["C26_nonclean", "C26_flaps_can_reduce_drag"], "")
c("C27", "proved", ["C27_wave_drag"], "")
c("C28", "proved", ["C28_fuel_bounded"], "")
c("C29", "proved", ["C29_fuel_increasing"], "")
c("C30", "proved", ["C30_limiter"], "")
c("C31", "proved", ["C31_enroute_signs"], "")
c("C32", "proved", ["C32_limit_flag_ignored", "C32_no_thrust_cap"], "")
c("C33", "proved", ["C33_default_altitude_raises", "C33_takeoff_explicit"], "")
c("C34", "proved", ["C34_takeoff_thrust"], "")
c("C35", "proved", ["C35_climb_continuous", "C35_step_at_30000"], "")
c("C36", "proved", ["C36_climb_symmetries"], "")
c("C19", "proved", ["C19_backends_agree"], "")
c("C21", "proved", ["C21_aero_elementwise", "C21_geo_elementwise", "C21_performance_elementwise"], "")
c("C22", "proved", ["C22_numpy_nan", "C22_numpy_nan_performance", "C22_climb_rate_unused_high", "C22_casadi_hides_nan"], "")
c("C80", "proved", ["C80_aero_finite", "C80_geo_finite", "C80_drag_finite", "C80_engine_finite"], "")
c("C20", "proved", ["C20_agree_inside", "C20_differ_outside"], "")
c("C37", "proved", ["C37_every_aircraft_constructs", "C37_fuel_flow_is_a_number", "C37_without_synonyms", "C37_engine_options"], "Complete shipped tables, transcribed by tools/gen_data.py.")
c("C38", "proved", ["C38_proportional"], "")
c("C39", "proved", ["C39_bounded_by_table"], "")
c("C40", "proved", ["C40_certification_points"], "")
c("C41", "proved", ["C41_mass_between"], "")
c("C42", "proved", ["C42_load_factor", "C42_a332_above_mtow"], "")
c("C70", "proved", ["C70_case_insensitive", "C70_engine_first_match", "C70_aircraft_exact"], "ASCII strings.")
c("C71", "proved", ["C71_search_implies_engine", "C71_search_listing", "C71_search_misses_mixed_case"], "")
c("C72", "proved", ["C72_engine_record_shared", "C72_engine_record_forgotten", "C72_aircraft_record_fresh"], "")
c("C73", "proved", ["C73_engine_accepted_iff", "C73_prefix_of_option_rejected"], "")
c("C81", "proved", ["C81_deviation"], "")
c("C82", "proved", ["C82_exact_name"], "")
c("C83", "proved", ["C83_wildcards_accepted", "C83_character_sets", "C83_character_ranges","C83_bracket_first"], "Patterns with a slash, which leave the directory, are not modelled.")
c("C84", "proved", ["C84_kinematic_queries"], "")
c("C23", "proved", ["C23_decorated", "C23_nests", "C23_pass_through"], "Regular arrays and lists of numbers; object arrays are not modelled.")
c("C43", "proved", ["C43_humidity"], "")
c("C44", "proved", ["C44_saturation","C44_crossing"], "")
c("C45", "proved", ["C45_threshold", "C45_default"], "")
c("C46", "proved", ["C46_shortwave"], "At zenith exactly 90 degrees the real formula divides by zero; not claimed.")
c("C47", "proved", ["C47_longwave"], "")
c("C48", "proved", ["C48_optical_table", "C48_optical_monotone"], "")
c("C85", "proved", ["C85_ice_threshold"], "brentq is represented by its contract: sign change required, some root in the bracket returned; numerical tolerance not modelled.")
c("C49", "proved", ["C49_time"], "")
c("C50", "proved", ["C50_climb", "C50_climb_shipped"], "")
c("C51", "proved", ["C51_levels_off", "C51_low_request_ignored"], "")
c("C52", "proved", ["C52_descent", "C52_descent_shipped"], "")
c("C53", "proved", ["C53_cruise"], "")
c("C54", "proved", ["C54_range_in_metres"], "")
c("C55", "proved", ["C55_complete_arguments"], "")
c("C56", "proved", ["C56_complete_continuous"], "")
c("C57", "proved", ["C57_draws", "C57_quiet_calls", "C57_noise_draws"], "The bit generator is abstract; the state it is left in by a call that raises is not modelled.")
c("C86", "proved", ["C86_kinematically_consistent"], "")
c("C87", "proved", ["C87_segment_order", "C87_climb_order_shipped"], "")
c("C88", "proved", ["C88_slow_descent_hangs", "C88_slow_descent_hangs_shipped"], "")
c("C89", "proved", ["C89_integer_columns"], "")
c("C90", "proved", ["C90_constant_speeds"], "")
c("C58", "proved", ["C58_one_label_per_sample"], "")
c("C59", "proved", ["C59_strongest_phase", "C59_missing_altitude"], "")
c("C60", "proved", ["C60_last_window_unlabelled"], "")
c("C61", "proved", ["C61_never_too_many", "C61_unsorted_loses_labels"], "")
c("C62", "proved", ["C62_rejected_data_kept", "C62_empty_rejected_unchanged", "C62_unusable_afterwards"], "")
c("C63", "proved", ["C63_takeoff_indices", "C63_landing_indices"], "Data without NaN.")
c("C64", "proved", ["C64_feet", "C64_gauss", "C64_assertion", "C64_equal_feet", "C64_missing", "C64_numbers"], "")
c("C91", "proved", ["C91_climb_reported_as_landing"], "")
c("C92", "proved", ["C92_defuzz", "C92_mean_of_maxima", "C92_letter_case", "C92_defuzz_errors"], "")
c("C93", "proved", ["C93_interp_membership"], "")
c("C65", "proved", ["C65_sortxy", "C65_borderline"], "")
c("C66", "proved", ["C66_simplefill", "C66_whole_seconds", "C66_fractional_times_ignored"], "")
c("C67", "proved", ["C67_constructor", "C67_reproduces_polynomials", "C67_short_signals", "C67_negative_deriv"], "Interpolation off, times already sorted.")
c("C68", "proved", ["C68_taylor_coefficient", "C68_derivative_negated"], "")
c("C69", "proved", ["C69_shape", "C69_constant", "C69_division_by_zero", "C69_regular_sampling_breaks", "C69_unbounded"], "")
c("C94", "proved", ["C94_affine_equivariance", "C94_rising_line", "C94_falling_line"], "")
c("C95", "proved", ["C95_causal", "C95_affine"], "")
c("C96", "proved", ["C96_weights", "C96_symmetric", "C96_times"], "The SciPy spline fit is an arbitrary function.")
c("C74", "proved", ["C74_closest_fix", "C74_closest_airport"], "")
c("C75", "proved", ["C75_closest_fix_global", "C75_no_airport_near", "C75_wrong_at_high_latitude", "C75_wrong_at_date_line", "C75_shipped_wrong"], "")
c("C76", "proved", ["C76_test_data_are_training_data"], "SciPy's distributions are arbitrary functions.")
c("C97", "proved", ["C97_airports_fresh", "C97_fixes_frozen"], "")
c("C98", "proved", ["C98_airport", "C98_fix", "C98_unreachable_fixes"], "")
c("C99", "proved", ["C99_shipped_lookup", "C99_missing_country"], "The table is generated from airports.csv by tools/gen_airports.py.")
c("C100", "proved", ["C100_extremes_dropped", "C100_raises", "C100_unknown_name"], "SciPy's distributions are arbitrary functions.")
c("C77", "proved", ["C77_drag_raises", "C77_thrust_raises", "C77_constructors", "C77_fuel_raises", "C77_drag_values", "C77_drag_sign", "C77_thrust_values", "C77_fields"], "")
c("C78", "proved", ["C78_nominal_and_idle"], "")
c("C79", "proved", ["C79_merge_values", "C79_merge_keys", "C79_merge_idempotent"], "")
c("C101", "proved", ["C101_cannot_construct", "C101_thrust_raises"], "")
c("C102", "proved", ["C102_fuel_coefficients", "C102_fuel_scale", "C102_no_row"], "")
c("C103", "proved", ["C103_synonym", "C103_engine_options", "C103_shipped_synonyms", "C103_constructors", "C103_wrap"], "")
c("C104", "proved", ["C104_noise"], "The random generator is an arbitrary stream of standard normals.")

c("C105", "proved", ["C105_opf", "C105_errors", "C105_defaults", "C105_spill"], "Python's float on the matched words is an arbitrary partial function; texts are ASCII.")
c("C106", "proved", ["C106_engine_type", "C106_engine_number", "C106_no_block"], "")
c("C107", "proved", ["C107_first_line", "C107_unknown", "C107_no_slash", "C107_letter_case", "C107_lines", "C107_load"], "")
c("C108", "proved", ["C108_high", "C108_high_falls", "C108_middle", "C108_climb_rate", "C108_low"], "")
c("C109", "proved", ["C109_formula", "C109_offset", "C109_table", "C109_offset_list", "C109_lengths"], "NumPy supplied as sci; exact real arithmetic with NaN.")
c("C110", "proved", ["C110_formula", "C110_lists", "C110_continuous", "C110_compressibility"], "NumPy supplied as sci.")
c("C111", "proved", ["C111_formula", "C111_lists", "C111_not_limited", "C111_missing","C111_zero_heating"], "NumPy supplied as sci.")
c("C112", "proved", ["C112_choice", "C112_case", "C112_order", "C112_paths", "C112_thrust", "C112_drag", "C112_fuel"], "Codes without glob wildcards; Python's float is an arbitrary partial function; XML parsing itself is not modelled.")
c("C113", "proved", ["C113_indices", "C113_descent", "C113_cruise"], "")
c("C114", "proved", ["C114_climb", "C114_descent", "C114_cruise"], "")
c("C115", "proved", ["C115_atmosphere", "C115_airspeed", "C115_distance", "C115_drag", "C115_drag_at_rest", "C115_thrust", "C115_fuel", "C115_emission"], "NumPy backend over the reals.")
c("C116", "proved", ["C116_fuel_ch", "C116_shipped"], "")
c("C117", "proved", ["C117_errors", "C117_point", "C117_arrays"], "xarray's linear interp is modelled; missing values in the file are not.")
c("C118","proved",["C118_atmosphere","C118_airspeed","C118_altitudes","C118_distance","C118_bearing","C118_destination","C118_drag","C118_thrust","C118_fuel","C118_emission","C118_tropopause","C118_zero_speed"],"Forward mode; the differentiation rules of the JAX primitives (Prelude/Dual) are trusted; exact arithmetic. Data records carry no tangent.")
c("C119","proved",["C119_arrive","C119_track","C119_between","C119_continue"],"")
c("C120","proved",["C120_min_drag","C120_min_fuel","C120_same_eas","C120_faster"],"Exact arithmetic; NumPy backend.")
c("C121","proved",["C121_atmosphere","C121_speeds","C121_calibrated","C121_drag","C121_distance","C121_fuel","C121_fuel_models","C121_float64","C121_float32","C121_takeoff","C121_gases","C121_indices","C121_engines","C121_crossover","C121_crossover_float64","C121_crossover_float32","C121_distance_far","C121_distance_far_float64","C121_pressure_altitude","C121_pressure_altitude_float64","C121_pressure_altitude_float32"],"the functions of the model run on a carrier that rounds every literal and operation; inputs are real numbers, so also representable ones; wave drag off for drag and fuel flow in flight")
c("C122","proved",["C122_aero","C122_geo","C122_drag","C122_thrust","C122_fuel","C122_emission"],"simplifications that CasADi and XLA make on the graph are not modelled")
c("C123","proved",["C123_input","C123_partials","C123_atmosphere","C123_airspeed","C123_altitudes","C123_distance","C123_bearing","C123_destination","C123_drag","C123_thrust","C123_fuel","C123_emission"],"The partial derivatives that JAX and CasADi attach to their primitives (Prelude/Gradient) are trusted; exact arithmetic. Data records are not differentiated.")
c("C124","proved",["C124_thrust","C124_emission","C124_drag","C124_wrap","C124_fuel_flow","C124_illegal","C124_aircraft","C124_unread_keywords","C124_subclasses","C124_get_backend"],"Values of other Python types are not modelled; record selection is that of Model/Construct.")
c("C125","proved",["C125_unread_keywords","C125_m_cr","C125_values","C125_documented_call"],"Keyword values are numbers and booleans.")
c("C126","proved",["C126_time_shift","C126_local","C126_append","C126_repeated","C126_time_unit"],"Exact arithmetic; the last window of a recording gets NA (C60).")
c("C127","proved",["C127_same_eas","C127_higher_is_further","C127_scaling","C127_below_min_drag","C127_no_best_speed"],"Exact arithmetic; NumPy backend.")
c("C128","proved",["C128_at_thrust","C128_double","C128_single","C128_enroute","C128_slow","C128_shipped"],"The code violates the property; the theorems say exactly where. IEEE infinities and NaN with exact finite arithmetic (Prelude/Overflow); rounding is C121; underflow is not modelled; wave drag off.")
c("C129","proved",["C129_drag","C129_thrust","C129_fuel","C129_emission","C129_column_drag","C129_column_fuel","C129_gear"],"The code violates the property; the theorems say which shapes work and what columns return. NumPy backend; broadcasting, squeezing and the decorator at every nested call are modelled (Prelude/Shaped, Model/Decorated).")
c("C130","proved",["C130_drag","C130_thrust","C130_fuel","C130_emission","C130_scalar_drag","C130_scalar_thrust","C130_scalar_fuel","C130_scalar_emission"],"The code violates the second part; the theorems say exactly for which arguments. Values are real numbers; tracers are JAX values of shape (); integer arguments, which jax.grad rejects, are not told from floats.")
c("C131","proved",["C131_drag","C131_thrust","C131_climb","C131_squares","C131_fuel","C131_emission","C131_nox","C131_co2","C131_python"],"The code violates the statement for climb thrust, NOx, CO2 and water. Proved: equality with the float results wherever the integer operations are exact, the exact error of the climb thrust and that it is positive, the bounds on the NOx factor, the wrapped values of CO2 and water, and the exceptions. The most negative value of a signed type is left out for climb thrust.")
c("C132","proved",["C132_nan","C132_exact","C132_single","C132_double","C132_enroute","C132_shipped"],"The code violates the statement; proved where the derivatives are right and where they are NaN. Numbers are exact below the overflow threshold; derivative rules are those of jax.lax and CasADi. Between 1.78 and 1.81 (14.2 and 14.23) times the maximum thrust C132_nan and C132_exact say which it is, except where the exponential lies in [Omega - 1, Omega). Drag without wave drag.")
c("C133","proved",["C133_drag","C133_thrust","C133_fuel","C133_emission"],"Exact arithmetic; arrays with more than one axis are in C129 and C130.")
c("C134","proved",["C134_humidity","C134_supersaturation"],"The code violates the statement; proved by what factor. The true value uses the code's two gas constants and its saturation pressures.")
c("C135","proved",["C135_water","C135_ice"],"Exact arithmetic; the inequalities between the fit and the slope of the saturation curve are proved by interval arithmetic over the whole range, evaluated by the kernel.")
c("C136","proved",["C136_climb","C136_descent","C136_shipped","C136_small_jets"],"Exact arithmetic. A limit that the aircraft file does not state (no vmo for gl5t, glf5, glf6, lj45) is not checked. Random parameters and noise are outside the statement.")
c("C137","proved",["C137_climb","C137_descent","C137_cruise","C137_slow","C137_level","C137_runway","C137_generated"],"Exact arithmetic; situations between the listed ones (rates of climb from 10 to 300 ft/min, altitudes from 0 to 200 ft) are decided by C59 only.")
c("C138","proved",["C138_cruise_balance"],"Exact arithmetic; one flight condition per type (the file's cruise height and Mach number).")
c("C139","proved",["C139_idle_below_drag","C139_rated"],"Exact arithmetic.")
c("C140","proved",["C140_nautical_miles","C140_kilometres","C140_no_range"],"Exact arithmetic; one flight condition per type (the file's cruise height and Mach number); constant mass within one comparison, every mass allowed.")
c("C141","proved",["C141_nox","C141_co","C141_hc"],"Exact arithmetic. For NOx, CO and HC the exceptions are characterised in both directions.")
c("C142","proved",["C142_history","C142_undisturbed","C142_thrust_fixed","C142_own_records","C142_shared","C142_change","C142_change_aircraft","C142_thrust_later"],"Induction over programs on a heap model of the mutable records. Rebinding attributes of an object is not modelled; an exception is caught by the program.")
c("C143","proved",["C143_top_of_climb"],"Closed forms in the mass, interval arithmetic in the kernel for the shipped numbers of each type, strict monotonicity and the intermediate value theorem for all masses.")
c("C144","proved",["C144_stages","C144_labels"],"Windows that straddle two parts are decided by C59 only. Time steps above 300 s are excluded in the labels because distance monotonicity (C56) is used for the order of the rows.")
c("C145","proved",["C145_rows"],"Overflow is modelled as in C128 (values beyond the threshold become infinite; rounding is not modelled). Rows between 5 and 25 kt are left open: the fuel model overflows on them for some types and masses and not for others.")
c("C146","proved",["C146_contents","C146_shared","C146_available","C146_separate"],"The key of a call is modelled after functools._make_key for strings, integers and booleans; other argument types and unknown keywords are not modelled.")
c("C147","proved",["C147_climb","C147_descent","C147_climb_shipped","C147_descent_shipped"],"Real arithmetic. The level rows after the climb (60 s) and the landing roll are not part of the table.")
c("C148","proved",["C148_table","C148_polar","C148_wrap","C148_leaves","C148_everywhere","C148_only","C148_only_models","C148_inside","C148_brackets"],"The disk is a list of files by absolute path; no symbolic links, empty directories or permissions. What is read is the content of the file; that it may not be an aircraft record is not modelled.")
c("C149","proved",["C149_climb","C149_level","C149_descent","C149_landing","C149_climb_shipped","C149_descent_shipped"],"Real arithmetic, enable_noise off. The general theorem for descents asks for a bound of the slope of the speeds where the deceleration begins, which is proved to exist for the shipped tables.")
c("C150","proved",["C150_clock","C150_climb","C150_descent","C150_cruise","C150_stall","C150_exact","C150_climb_shipped","C150_descent_shipped","C150_cruise_shipped","C150_setup_exact","C150_climb_default","C150_descent_default","C150_cruise_default"],"enable_noise and random off; the general statements are about the numbers in memory when the loop begins, those for the default flights include the setup.")
