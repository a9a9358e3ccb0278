{"id": "C01", "title": "Atmosphere is physical everywhere", "statement": "atmos(h, dT) returns strictly positive pressure, density and temperature, the temperature is never below 191.65 K, and pressure = density * R * temperature.", "quantifier": "every real altitude h (also negative and far above the tropopause) and every real temperature shift dT", "why_tests_cant": "two continuous unbounded inputs; tests sample a few altitudes only", "anchors": ["openap/aero.py:Aero.atmos", "openap/aero.py:Aero.pressure", "openap/aero.py:Aero.density", "openap/aero.py:Aero.temperature"]}
{"id": "C02", "title": "Pressure and density fall strictly with altitude", "statement": "For a fixed temperature shift, going higher strictly lowers pressure and density, and never raises temperature or the speed of sound.", "quantifier": "every pair h1 < h2 of real altitudes and every real dT", "why_tests_cant": "an ordering over all pairs of reals, including pairs straddling the 11 km kink", "anchors": ["openap/aero.py:Aero.atmos", "openap/aero.py:Aero.vsound"]}
{"id": "C03", "title": "ISA temperature profile and saturation of the temperature shift", "statement": "Temperature is 288.15 + s - 0.0065 h up to 11 km and 216.65 + s above, where s is dT limited to [-25, 15]; the shift adds the same s at every altitude, the profile is continuous at 11 km, and density at sea level is 1.225 whatever dT is.", "quantifier": "every real h and dT", "why_tests_cant": "the kink has to sit at exactly the same altitude for every shift", "anchors": ["openap/aero.py:Aero.atmos", "openap/aero.py:Aero.temperature", "openap/aero.py:Aero.density"]}
{"id": "C04", "title": "Hydrostatic balance", "statement": "The rate of change of pressure with altitude equals minus density times an effective gravity that differs from 9.80665 by less than 0.02 %, in the troposphere for every dT, and in the stratosphere for dT = 0.", "quantifier": "every real h other than 11000 m; every dT (troposphere) / dT = 0 (stratosphere)", "why_tests_cant": "a statement about a derivative at every point", "anchors": ["openap/aero.py:Aero.atmos", "openap/aero.py:Aero.pressure", "openap/aero.py:Aero.density"]}
{"id": "C05", "title": "Pressure altitude inverts the ISA pressure", "statement": "At dT = 0, h_isa(pressure(h)) is within 2.5 m of h in the troposphere and within 2.5 m in the stratosphere up to 20 km. With dT != 0 the inversion does not hold: a pressure computed for a shifted atmosphere is not mapped back (already at sea level).", "quantifier": "every real h in [0, 20000]", "why_tests_cant": "an error bound over a continuum; the two functions use different exponents", "anchors": ["openap/aero.py:Aero.h_isa", "openap/aero.py:Aero.pressure"]}
{"id": "C06", "title": "Higher pressure means lower pressure altitude, except across the tropopause switch", "statement": "h_isa is strictly decreasing in pressure among pressures above 22630 Pa and among positive pressures up to 22630 Pa; the two branches do not meet, so there are pressures on the two sides of the switch where the higher pressure gets the higher altitude.", "quantifier": "every pair of positive pressures, every dT > -200", "why_tests_cant": "an ordering over all pairs, with a branch switch between them", "anchors": ["openap/aero.py:Aero.h_isa"]}
{"id": "C07", "title": "Airspeed conversions are mutually inverse", "statement": "TAS->Mach->TAS, Mach->TAS->Mach, TAS->EAS->TAS and EAS->TAS->EAS return the input; CAS->TAS->CAS, TAS->CAS->TAS, CAS->Mach->CAS and Mach->CAS->Mach return the input for non-negative speeds and the absolute value in general.", "quantifier": "every real speed, altitude and dT", "why_tests_cant": "three continuous inputs; involves fractional powers on both sides of the kink", "anchors": ["openap/aero.py:Aero.tas2mach", "openap/aero.py:Aero.mach2tas", "openap/aero.py:Aero.eas2tas", "openap/aero.py:Aero.tas2eas", "openap/aero.py:Aero.cas2tas", "openap/aero.py:Aero.tas2cas", "openap/aero.py:Aero.mach2cas", "openap/aero.py:Aero.cas2mach"]}
{"id": "C08", "title": "Airspeed conversions are increasing and fix zero", "statement": "Each of the eight conversions maps 0 to 0 and is strictly increasing on non-negative speeds at fixed altitude and dT.", "quantifier": "every pair of non-negative speeds, every altitude and dT", "why_tests_cant": "ordering over all pairs", "anchors": ["openap/aero.py:Aero.cas2tas", "openap/aero.py:Aero.tas2cas", "openap/aero.py:Aero.cas2mach", "openap/aero.py:Aero.mach2cas"]}
{"id": "C09", "title": "EAS <= CAS <= TAS above sea level", "statement": "At or above sea level in the standard atmosphere, for one and the same motion, equivalent airspeed does not exceed calibrated airspeed up to the rounding of the sea-level constants, and calibrated airspeed does not exceed true airspeed.", "quantifier": "every non-negative true airspeed, every h >= 0, dT = 0", "why_tests_cant": "inequality between two nested fractional-power expressions on a two-dimensional domain", "anchors": ["openap/aero.py:Aero.tas2cas", "openap/aero.py:Aero.tas2eas"]}
{"id": "C10", "title": "Constant-CAS climb gains true airspeed and Mach", "statement": "At fixed positive CAS, a higher altitude gives a strictly higher true airspeed and a strictly higher Mach number; at fixed Mach a higher altitude gives a strictly lower CAS.", "quantifier": "every positive CAS or Mach, every pair h1 < h2, every dT", "why_tests_cant": "ordering over all pairs of altitudes", "anchors": ["openap/aero.py:Aero.cas2tas", "openap/aero.py:Aero.cas2mach", "openap/aero.py:Aero.mach2cas"]}
{"id": "C11", "title": "Crossover altitude orders speeds", "statement": "crossover_alt strictly decreases with CAS and strictly increases with Mach (for Mach above its 1e-4 floor), is zero exactly when CAS/a0 equals Mach, and the pressure ratio it encodes is exactly the ratio of the two impact pressures.", "quantifier": "every positive CAS, every Mach > 1e-4, every dT > -288.15", "why_tests_cant": "ordering and a zero-set on a continuous domain", "anchors": ["openap/aero.py:Aero.crossover_alt"]}
{"id": "C12", "title": "At the crossover altitude CAS and Mach agree", "statement": "At dT = 0 and a crossover altitude within the troposphere, the Mach number of the given CAS at crossover_alt(CAS, Mach) equals the given Mach to within 0.1 %.", "quantifier": "every CAS > 0 and Mach with crossover altitude in [0, 11000] m", "why_tests_cant": "error bound over a two-dimensional continuum with three different sets of constants", "anchors": ["openap/aero.py:Aero.crossover_alt", "openap/aero.py:Aero.cas2mach", "openap/aero.py:Aero.atmos"]}
{"id": "C13", "title": "Great-circle distance is a metric", "statement": "distance is non-negative, symmetric, zero from a point to itself, satisfies the triangle inequality, never exceeds half the great circle pi*(R+h), is unchanged by adding 360 to a longitude, and scales linearly with R+h; it is zero only for coordinates of the same point on the sphere.", "quantifier": "every triple of points with latitudes in [-90, 90], every altitude h > -R", "why_tests_cant": "six continuous coordinates", "anchors": ["openap/geo.py:Geo.distance"]}
{"id": "C14", "title": "Destination point lies at the requested distance", "statement": "distance(p, latlon(p, d, brg)) = d.", "quantifier": "every start latitude in [-90, 90], longitude and bearing arbitrary, 0 <= d <= pi*(R+h)", "why_tests_cant": "four continuous inputs", "anchors": ["openap/geo.py:Geo.latlon", "openap/geo.py:Geo.distance"]}
{"id": "C15", "title": "Destination point lies in the requested direction", "statement": "bearing(p, latlon(p, d, brg)) is brg reduced to [0, 360), except in the degenerate cases of a start at a pole or a destination coinciding with the start or its antipode.", "quantifier": "every start latitude strictly inside (-90, 90), every bearing, 0 < d < pi*(R+h)", "why_tests_cant": "four continuous inputs and a branch cut", "anchors": ["openap/geo.py:Geo.latlon", "openap/geo.py:Geo.bearing"]}
{"id": "C16", "title": "Bearing is a compass angle", "statement": "bearing returns a value in [0, 360); due north is 0, due south 180; the bearing is unchanged by adding 360 to a longitude.", "quantifier": "every pair of coordinates", "why_tests_cant": "range of a composed inverse-trigonometric function over four reals", "anchors": ["openap/geo.py:Geo.bearing"]}
{"id": "C17", "title": "Destination coordinates are bounded", "statement": "latlon returns a latitude in [-90, 90] and a longitude within 180 degrees of the start longitude; the longitude is not re-normalised to [-180, 180].", "quantifier": "every input", "why_tests_cant": "range over five reals", "anchors": ["openap/geo.py:Geo.latlon"]}
{"id": "C18", "title": "Solar zenith angle is well defined", "statement": "solar_zenith_angle is in [0, 180]; its cosine is the scalar product of the directions of the point and of the sun given by Spencer's series for declination and equation of time; the clamp before arccos never changes the value, it is 360-periodic in longitude, 15 degrees of longitude equal one hour, and the sun can be overhead only at latitudes within 24.3 degrees of the equator.", "quantifier": "every latitude, longitude and day/hour", "why_tests_cant": "four continuous inputs", "anchors": ["openap/geo.py:Geo.solar_zenith_angle"]}
{"id": "C19", "title": "All backends compute the same numbers", "statement": "On real inputs, every aero, geo, drag, thrust and fuel function gives the same value under the NumPy, JAX and CasADi backends.", "quantifier": "every real input of every listed function, every aircraft and engine record", "why_tests_cant": "the backends implement clip, where, maximum differently; agreement must hold for every argument", "anchors": ["openap/backends/numpy_backend.py:NumpyBackend", "openap/backends/casadi_backend.py:CasadiBackend", "openap/backends/jax_backend.py:JaxBackend", "openap/aero.py:Aero", "openap/geo.py:Geo"]}
{"id": "C20", "title": "Emission interpolation differs between backends outside the LTO table", "statement": "NOx, CO and HC computed with the CasADi backend equal the NumPy result when the sea-level fuel flow is inside [idle, take-off]; outside that range CasADi extrapolates where NumPy holds the end value, and the results differ.", "quantifier": "every engine record with increasing fuel flows and every operating point", "why_tests_cant": "needs a statement about all points inside and a witness outside", "anchors": ["openap/backends/casadi_backend.py:CasadiBackend.interp", "openap/backends/numpy_backend.py:NumpyBackend.interp", "openap/emission.py:Emission.nox"]}
{"id": "C21", "title": "Array inputs are evaluated element by element", "statement": "Calling any aero, geo, drag, thrust, fuel or emission function on one-dimensional arrays of the same length gives, at each index, the value of the scalar call at that index. (Other shapes: C129.)", "quantifier": "every index set, every array of inputs", "why_tests_cant": "array length is unbounded", "anchors": ["openap/aero.py:Aero", "openap/geo.py:Geo", "openap/drag.py:Drag", "openap/thrust.py:Thrust", "openap/fuel.py:FuelFlow"]}
{"id": "C22", "title": "Missing values stay missing", "statement": "With the NumPy backend a NaN altitude or a NaN speed always yields NaN from the atmosphere and airspeed functions; the same holds for drag, take-off and climb thrust and fuel flow, except that climb thrust above 30000 ft does not read the climb rate; with the CasADi backend a NaN altitude silently yields a finite temperature.", "quantifier": "every function argument position, every value of the other arguments", "why_tests_cant": "requires tracking NaN through every operation for every other argument", "anchors": ["openap/backends/numpy_backend.py:NumpyBackend.maximum", "openap/backends/casadi_backend.py:CasadiBackend.maximum", "openap/aero.py:Aero.atmos"]}
{"id": "C23", "title": "Scalar in, scalar out; vector in, vector out", "statement": "A decorated method called with scalars returns a scalar; called with length-n vectors (n >= 2) returns a length-n vector holding the scalar results (a column when declared with column=True), with scalars and one-element vectors broadcast; decorated methods may call each other; a one-element vector comes back as a scalar; strings are passed unchanged; a single symbolic argument switches conversion off for all arguments.", "quantifier": "every argument list and every element-wise method", "why_tests_cant": "array length is unbounded; decorator nests", "anchors": ["openap/extra/__init__.py:ndarrayconvert"]}
{"id": "C24", "title": "Drag is positive and bounded below by the minimum-drag point", "statement": "Clean drag is strictly positive, and never below 2*sqrt(cd0*k) times the lift, at every speed including zero.", "quantifier": "every positive mass, real speed, altitude, vertical rate and dT, every polar with cd0, k > 0", "why_tests_cant": "five continuous inputs including the division guard at zero speed", "anchors": ["openap/drag.py:Drag.clean", "openap/drag.py:Drag._calc_drag", "openap/drag.py:Drag._cl"]}
{"id": "C25", "title": "Drag grows with mass and is symmetric in vertical rate", "statement": "Clean and non-clean drag strictly increase with mass (for nonzero ground-path speed), are unchanged when the vertical rate changes sign, and a nonzero vertical rate never increases drag when wave drag is off.", "quantifier": "every 0 <= m1 < m2, every speed, altitude, rate, dT", "why_tests_cant": "ordering over a continuum", "anchors": ["openap/drag.py:Drag.clean", "openap/drag.py:Drag.nonclean"]}
{"id": "C26", "title": "Non-clean drag reduces to clean drag; gear always adds", "statement": "nonclean with zero flap and gear up equals clean (wave drag off); extending the gear adds the same positive drag coefficient times dynamic pressure; flaps add drag exactly when the squared lift coefficient is below the ratio of the added parasitic coefficient to the reduction of the induced factor, so flaps can reduce computed drag at low speed.", "quantifier": "every mass, speed, altitude, flap angle in [0, 90], aircraft record with positive data", "why_tests_cant": "equivalence over a continuum", "anchors": ["openap/drag.py:Drag.nonclean", "openap/drag.py:Drag.clean"]}
{"id": "C27", "title": "Wave drag only adds", "statement": "Enabling wave drag never lowers clean drag, and leaves it unchanged below the critical Mach number.", "quantifier": "every input, aircraft with sweep below 90 degrees", "why_tests_cant": "a branch hidden in a maximum over a continuum", "anchors": ["openap/drag.py:Drag.clean"]}
{"id": "C28", "title": "Fuel flow at thrust is positive and bounded", "statement": "at_thrust returns a strictly positive fuel flow that is strictly below n_eng * scale * c1, whatever the thrust, including negative and huge thrust.", "quantifier": "every real thrust, every fuel model with positive c1, c2 and c3 >= 0, positive engine data", "why_tests_cant": "unbounded input; involves nested exponentials", "anchors": ["openap/fuel.py:FuelFlow.at_thrust", "openap/fuel.py:FuelFlow._load_fuel_model"]}
{"id": "C29", "title": "More thrust burns more fuel", "statement": "at_thrust is strictly increasing in thrust for thrust above -10.5 times the maximum thrust.", "quantifier": "every pair of thrusts in that range", "why_tests_cant": "ordering over a continuum through a smooth limiter", "anchors": ["openap/fuel.py:FuelFlow.at_thrust"]}
{"id": "C30", "title": "The thrust-ratio limiter bounds below but not above", "statement": "The smoothed thrust ratio used for fuel flow is at least 0.03 for every thrust ratio above -10.5 and differs from the raw ratio by at most 0.0001 in [0.15, 1]; the documented upper limit of 1 does not hold: the limited ratio is unbounded.", "quantifier": "every real thrust ratio", "why_tests_cant": "asymptotic statement over an unbounded input", "anchors": ["openap/fuel.py:FuelFlow.at_thrust"]}
{"id": "C31", "title": "Enroute fuel flow responds to mass, climb and acceleration with the right sign", "statement": "enroute fuel flow increases with acceleration, and with mass whenever vertical rate and acceleration are non-negative; climbing costs at least as much as descending at the same rate.", "quantifier": "every input with thrust above -10.5 times maximum", "why_tests_cant": "monotonicity through drag, path angle and limiter over a continuum", "anchors": ["openap/fuel.py:FuelFlow.enroute"]}
{"id": "C32", "title": "The limit flag has no effect on the enroute fuel flow", "statement": "Although documented as applying thrust limits, the limit flag of enroute is never read: the result is the same for both values on every input, and no cap on thrust is applied.", "quantifier": "every input", "why_tests_cant": "non-interference over all inputs", "anchors": ["openap/fuel.py:FuelFlow.enroute"]}
{"id": "C33", "title": "Take-off fuel flow requires an explicit altitude", "statement": "Although alt is documented as optional, takeoff(tas) without an altitude raises TypeError for every speed; with an explicit altitude the call succeeds and is throttle times the fuel flow at the take-off thrust at standard temperature.", "quantifier": "every speed and throttle", "why_tests_cant": "error behaviour for every input", "anchors": ["openap/fuel.py:FuelFlow.takeoff", "openap/thrust.py:Thrust.takeoff"]}
{"id": "C34", "title": "Take-off thrust is positive and close to rated thrust when static", "statement": "takeoff thrust is strictly positive for every speed; at zero speed, sea level and dT = 0 it is within 0.1 % of the number of engines times the rated thrust; it scales linearly with the number of engines and rated thrust.", "quantifier": "every speed, pressure ratio in (0, 1.1], bypass ratio in [0, 15]", "why_tests_cant": "sign of a quadratic with fitted coefficients over a continuum", "anchors": ["openap/thrust.py:Thrust.takeoff"]}
{"id": "C35", "title": "Climb thrust has no step at 10000 ft", "statement": "climb thrust is continuous in altitude at 10000 ft for every speed, climb rate and dT. At 30000 ft it is not: for two climb rates of different magnitude at most one of the two thrust curves is continuous there, so all climb rates but one magnitude see a step.", "quantifier": "every speed, rate, dT and engine", "why_tests_cant": "a limit statement for every operating point", "anchors": ["openap/thrust.py:Thrust.climb"]}
{"id": "C36", "title": "Climb thrust symmetries", "statement": "climb thrust depends only on the magnitude of the climb rate, treats all speeds below 10 kt as 10 kt, cruise thrust equals climb thrust at zero rate, and at the reference cruise point (cruise Mach and a reference altitude above 10000 ft) it equals the rated cruise thrust of all engines; idle thrust is 7 % of take-off thrust.", "quantifier": "every input", "why_tests_cant": "functional identities over continuous inputs", "anchors": ["openap/thrust.py:Thrust.climb", "openap/thrust.py:Thrust.cruise", "openap/thrust.py:Thrust.descent_idle"]}
{"id": "C37", "title": "Every shipped aircraft constructs", "statement": "For every aircraft returned by available_aircraft(use_synonym=True), drag, thrust, fuel flow and kinematic models can be constructed with use_synonym=True: data files exist, the default engine is found and accepted, and all referenced records exist and carry usable numbers.", "quantifier": "every type code in the shipped list", "why_tests_cant": "a cross-table consistency claim over the complete data set that the test-suite samples", "anchors": ["openap/prop.py:available_aircraft", "openap/prop.py:aircraft", "openap/prop.py:engine", "openap/thrust.py:Thrust.__init__", "openap/drag.py:Drag.load_drag_model", "openap/kinematic.py:WRAP.__init__", "openap/fuel.py:FuelFlow._load_fuel_model"]}
{"id": "C38", "title": "CO2, H2O, soot and SOx are proportional to fuel", "statement": "The four species are additive and homogeneous in fuel flow with emission indices 3160, 1230, 0.03 and 1.2 g/kg, hence their ratios are fixed.", "quantifier": "every pair of fuel flows", "why_tests_cant": "linearity over a continuum", "anchors": ["openap/emission.py:Emission.co2", "openap/emission.py:Emission.h2o", "openap/emission.py:Emission.soot", "openap/emission.py:Emission.sox"]}
{"id": "C39", "title": "NOx, CO and HC are non-negative and bounded by the engine table", "statement": "For non-negative fuel flow below 145442 ft the rates are non-negative, zero at zero fuel, and the sea-level emission index used lies between the smallest and largest index of the engine's four LTO modes.", "quantifier": "every fuel flow >= 0, speed, altitude < 145442 ft, dT, engine record", "why_tests_cant": "range of an interpolation over a continuum", "anchors": ["openap/emission.py:Emission.nox", "openap/emission.py:Emission.co", "openap/emission.py:Emission.hc", "openap/emission.py:Emission._fl2sl"]}
{"id": "C40", "title": "LTO interpolation reproduces the certification points", "statement": "When the sea-level equivalent fuel flow equals one of the four LTO fuel flows of a shipped engine, the emission index used is that mode's certified value; this needs the fuel flows of every shipped engine to be strictly increasing.", "quantifier": "every engine in the shipped engine table, all four modes", "why_tests_cant": "holds only if all 426 records are ordered", "anchors": ["openap/emission.py:Emission.nox", "openap/data/engine/engines.csv"]}
{"id": "C41", "title": "Estimated mass lies between OEW and MTOW", "statement": "from_range returns a mass between OEW and MTOW (a fraction between OEW/MTOW and 1) when the load factor is in [0, 1] and the full-fuel payload is non-negative; it is non-decreasing in distance and saturates below 20 % and above 100 % of the design range.", "quantifier": "every distance, load factor in [0, 1], aircraft record", "why_tests_cant": "two continuous inputs and a clip", "anchors": ["openap/mass.py:from_range"]}
{"id": "C42", "title": "More payload means more mass, except for the A332", "statement": "from_range strictly increases with load factor for every offered type code except three: for A332 and its synonym A306 it strictly decreases (the full-fuel payload is negative) and at full range exceeds MTOW for every load factor below 1; for CRJ9, which has no range entry, it always raises KeyError.", "quantifier": "every shipped aircraft, every pair of load factors", "why_tests_cant": "data-dependent sign over a continuum", "anchors": ["openap/mass.py:from_range", "openap/data/aircraft/a332.yml"]}
{"id": "C43", "title": "Relative humidities are consistent", "statement": "Converting relative humidity over water to ice gives exactly the relative humidity over ice of the same air; both are linear in humidity and pressure; any reference phase other than ice or water is rejected.", "quantifier": "every specific humidity, pressure, temperature > 0, and every string", "why_tests_cant": "identity over three reals plus all strings", "anchors": ["openap/contrail.py:relative_humidity", "openap/contrail.py:rhw2rhi"]}
{"id": "C44", "title": "Saturation pressures are positive and increasing", "statement": "Saturation pressure over ice is positive and strictly increasing with temperature for temperatures up to 1161 K, saturation pressure over water is positive and strictly increasing on 123 K to 332 K; the two curves meet at exactly one temperature between 110 K and 332 K, which is within 0.3 mK of the triple point 273.16 K; below it ice saturation lies below water saturation, above it the other way round.", "quantifier": "every temperature in the stated interval", "why_tests_cant": "ordering over a continuum, with transcendental terms", "anchors": ["openap/contrail.py:saturation_pressure_over_ice", "openap/contrail.py:saturation_pressure_over_water"]}
{"id": "C45", "title": "Contrail threshold rises with pressure and efficiency", "statement": "The water-saturation critical temperature strictly increases with ambient pressure and with propulsion efficiency whenever the mixing slope is at least 0.0545 Pa/K; it is NaN up to 0.053 Pa/K, and between 0.053 and 0.0544 Pa/K it decreases with pressure instead.", "quantifier": "every pair of pressures and efficiencies below 1 in that range", "why_tests_cant": "ordering over a continuum, with a domain edge", "anchors": ["openap/contrail.py:critical_temperature_water"]}
{"id": "C46", "title": "Shortwave contrail forcing cools by day and vanishes at night", "statement": "rf_shortwave is 0 for zero optical depth, strictly negative for positive optical depth and strictly more negative for larger optical depth, for zenith angles in (-90, 90); it is exactly 0 for zenith > 90.", "quantifier": "every zenith angle, optical depths >= 0", "why_tests_cant": "three continuous inputs", "anchors": ["openap/contrail.py:rf_shortwave"]}
{"id": "C47", "title": "Longwave forcing never cools and net forcing is the sum", "statement": "rf_longwave >= 0, non-decreasing in OLR and non-increasing in temperature; rf_net is the sum, so at night rf_net >= 0.", "quantifier": "every input", "why_tests_cant": "three to five continuous inputs", "anchors": ["openap/contrail.py:rf_longwave", "openap/contrail.py:rf_net"]}
{"id": "C48", "title": "Contrail optical properties follow the documented age table", "statement": "Optical depth, width and cirrus depth are constant on the documented age bins (closed on the left; negative ages in the first, NaN in the last), non-decreasing in age, and cirrus depth is 0.9 times optical depth.", "quantifier": "every real age", "why_tests_cant": "bin edges inclusive/exclusive for every real", "anchors": ["openap/contrail.py:contrail_optical_properties"]}
{"id": "C49", "title": "Generated time stamps advance uniformly", "statement": "Row i of a climb, cruise or descent trajectory has time i*dt.", "quantifier": "every parameter set and every row, trajectory length unbounded", "why_tests_cant": "unbounded loop", "anchors": ["openap/gen.py:FlightGenerator.climb", "openap/gen.py:FlightGenerator.descent", "openap/gen.py:FlightGenerator.cruise"]}
{"id": "C50", "title": "Generated climbs terminate at or above the target altitude", "statement": "With positive time step, accelerations and climb rates the climb loop terminates; altitude and distance never decrease along the rows; the final altitude is at least the requested cruise altitude and exceeds max(cruise altitude, crossover altitude, constant-CAS altitude, 1500 ft) by less than one step.", "quantifier": "every parameter set meeting the sign conditions", "why_tests_cant": "termination of an unbounded loop", "anchors": ["openap/gen.py:FlightGenerator.climb"]}
{"id": "C51", "title": "Climb levels off at the requested cruise altitude", "statement": "A climb whose requested altitude (rounded to hundreds of feet, moving it at most 50 ft) is at least the CAS/Mach crossover altitude, the constant-CAS altitude and 1500 ft ends less than one time step of climb above it. Lower requests are not honoured: for every offered type a climb to at most 9000 ft ends at 3000 m or higher.", "quantifier": "every requested cruise altitude", "why_tests_cant": "needs the reachable set of an unbounded loop", "anchors": ["openap/gen.py:FlightGenerator.climb"]}
{"id": "C52", "title": "Generated descents end on the ground", "statement": "With positive time step, negative descent rates and landing acceleration and no threshold altitude below sea level the descent returns; recorded altitude never rises and is never negative; distance never decreases when 0.2 dt is below the approach speed; in the last row the aircraft is on the ground or would reach it in the next step, and one step of braking stops it. For every offered type the conditions hold for all sensible arguments.", "quantifier": "every parameter set meeting the sign conditions", "why_tests_cant": "termination and invariant of an unbounded loop", "anchors": ["openap/gen.py:FlightGenerator.descent"]}
{"id": "C53", "title": "Generated cruise covers the requested distance", "statement": "The cruise loop terminates exactly when speed times step is positive or exceeds the distance; row i is at distance i*v*dt, every recorded distance after the first row is at most the requested one and the next step would exceed it; altitude and speed are constant.", "quantifier": "every speed, step and distance", "why_tests_cant": "termination of an unbounded loop", "anchors": ["openap/gen.py:FlightGenerator.cruise"]}
{"id": "C54", "title": "Cruise range is read in metres", "statement": "cruise(range_cr=r) ends within one step of r metres, although range_cr is documented in kilometres; only the table default is converted from kilometres.", "quantifier": "every r", "why_tests_cant": "unit claim for every value", "anchors": ["openap/gen.py:FlightGenerator.cruise"]}
{"id": "C55", "title": "complete() rejects two of its documented arguments", "statement": "complete() documents mach_const_cl and mach_const_de but raises TypeError exactly when one of them is passed; every other combination of sensible arguments returns, for every offered type.", "quantifier": "every set of keyword arguments", "why_tests_cant": "all subsets of keywords", "anchors": ["openap/gen.py:FlightGenerator.complete"]}
{"id": "C56", "title": "Complete trajectories are continuous in time and distance", "statement": "In the output of complete(), time and distance never decrease; each of the three parts starts at the time and distance where the previous part ended.", "quantifier": "every offered type, random or not, every sensible argument set with a time step of at most 300 s, noise off", "why_tests_cant": "unbounded trajectories", "anchors": ["openap/gen.py:FlightGenerator.complete"]}
{"id": "C57", "title": "Non-random generation leaves the random stream untouched", "statement": "A call with random=False and noise disabled consumes no random numbers, so it does not change any later result; a random call consumes a fixed number of draws whether or not its parameters are overridden.", "quantifier": "every history of generator calls", "why_tests_cant": "quantifies over call histories", "anchors": ["openap/gen.py:FlightGenerator"]}
{"id": "C58", "title": "Phase labels come from the phase set, one per sample", "statement": "After an accepted set_trajectory with non-decreasing times, phaselabel succeeds (no lookup error) and returns exactly one label per sample, each one of GND, CL, DE, CR, LVL or NA, whatever the data and whichever of them are NaN.", "quantifier": "every trajectory with non-decreasing times and every positive window", "why_tests_cant": "unbounded trajectory and all reals", "anchors": ["openap/phase.py:FlightPhase.phaselabel"]}
{"id": "C59", "title": "Phase decision is the strongest rule", "statement": "Outside the last time window, the label of a sample is the phase whose rule (smallest of its altitude, speed and vertical-rate memberships at the window means) is the strongest, ties going to the later of GND, CL, DE, CR, LVL. A NaN speed or vertical rate is left out of the rules; a NaN altitude makes the label LVL.", "quantifier": "every altitude, speed and vertical rate", "why_tests_cant": "depends on the defuzzification grid for every activation level", "anchors": ["openap/phase.py:FlightPhase.phaselabel", "openap/extra/fuzzy.py:defuzz"]}
{"id": "C60", "title": "Every sample gets a phase", "statement": "phaselabel labels every sample. (Fails: exactly the samples of the last time window are NA, so there is always at least one.)", "quantifier": "every trajectory", "why_tests_cant": "holds for every input", "anchors": ["openap/phase.py:FlightPhase.phaselabel"]}
{"id": "C61", "title": "Unsorted times do not corrupt the labels", "statement": "phaselabel returns as many labels as samples. (Fails for unsorted times: it still returns and never gives more labels than samples, but four samples in windows 0, 1, 0, 2 always give three labels.)", "quantifier": "every trajectory", "why_tests_cant": "list-length invariant over all time orders", "anchors": ["openap/phase.py:FlightPhase.phaselabel"]}
{"id": "C62", "title": "Rejected trajectories leave the object unchanged", "statement": "When set_trajectory raises, the previously set trajectory is still in force. (Fails: for arrays of different lengths the rejected data replace the old data while the old sample count stays, and phaselabel then raises; only an empty time array leaves the object unchanged.)", "quantifier": "every state and every rejected input", "why_tests_cant": "failure atomicity over all histories", "anchors": ["openap/phase.py:FlightPhase.set_trajectory"]}
{"id": "C63", "title": "Phase indices are ordered and in range", "statement": "flight_phase_indices succeeds on every accepted trajectory without NaN. When take-off is detected, TO + 5 <= IC < CL - 1 and CL <= n, all samples before CL are below 1500 ft, the sample before CL is at 200 ft or more and at most 300 s after TO. When landing is detected, FA + 5 <= LD, LD + 5 < END <= n, FA is at 100 ft or more and the speed is at least 30 kt from FA to END.", "quantifier": "every trajectory", "why_tests_cant": "index arithmetic over unbounded data", "anchors": ["openap/phase.py:FlightPhase.flight_phase_indices", "openap/phase.py:FlightPhase._get_to_ic", "openap/phase.py:FlightPhase._get_fa_ld"]}
{"id": "C64", "title": "Fuzzy memberships are degrees", "statement": "gaussmf, zmf and smf return values in [0, 1]; zmf is non-increasing, smf non-decreasing, smf + zmf = 1 for the same feet, and b < a is rejected by an assertion. Equal feet a = b pass the assertion and give a step, but smf is NaN at the step itself. A NaN value has degree 1 in both zmf and smf.", "quantifier": "every real x, mean, sigma != 0, a < b", "why_tests_cant": "range and ordering over reals", "anchors": ["openap/extra/fuzzy.py:gaussmf", "openap/extra/fuzzy.py:zmf", "openap/extra/fuzzy.py:smf"]}
{"id": "C65", "title": "Sorting keeps every sample", "statement": "sortxy returns the samples ordered by time, keeps every (time, value) pair, and keeps the order of samples with equal time. No samples raise ValueError, and samples of the longer list without a partner are dropped.", "quantifier": "every pair of lists", "why_tests_cant": "unbounded lists", "anchors": ["openap/extra/filters.py:BaseFilter.sortxy"]}
{"id": "C66", "title": "Fill-in holds the last value", "statement": "simplefill on whole-second times returns one value for each second from the first to the last time: the (first) value recorded at the latest stamped second not later. For other times the seconds run from the truncated first time to before the truncated last time plus one, a sample counts only if its time is a whole second, and 0 is used before the first such sample: without any whole-second sample all values are 0.", "quantifier": "every non-empty list of samples", "why_tests_cant": "unbounded lists", "anchors": ["openap/extra/filters.py:BaseFilter.simplefill"]}
{"id": "C67", "title": "Savitzky-Golay keeps length and reproduces polynomials", "statement": "A Savitzky-Golay filter can be built exactly for an odd window at least two larger than the order (signs ignored). Its output has as many values as the input exactly when the input is longer than the half window h or twice its length is h+2, and at interior points smoothing reproduces every polynomial signal of degree at most the order exactly. deriv is a Python index: -1-k means order-k, and anything outside -order-1..order makes filter raise.", "quantifier": "every window, order, signal and polynomial", "why_tests_cant": "unbounded lists and all polynomials", "anchors": ["openap/extra/filters.py:SavitzkyGolay.filter"]}
{"id": "C68", "title": "Savitzky-Golay derivative is negated", "statement": "With deriv=d the filter should return the d-th derivative of a polynomial signal. At interior points it returns (-1)^d times the derivative divided by d!; with deriv=1 the sign is wrong.", "quantifier": "every polynomial signal", "why_tests_cant": "all polynomials", "anchors": ["openap/extra/filters.py:SavitzkyGolay.filter"]}
{"id": "C69", "title": "Weighted filter preserves constants but is not bounded", "statement": "TWF returns one value per sample, the first two copied (a single sample, or a window below 2, raises IndexError). It returns a constant signal unchanged when no window's reciprocal gaps sum to 1; where they do it divides by zero, so that sampling every window-2 seconds gives no finite value from sample number window on. Its output is not bounded by the range of the data.", "quantifier": "every signal", "why_tests_cant": "unbounded lists", "anchors": ["openap/extra/filters.py:TWF.filter"]}
{"id": "C70", "title": "Lookups are case-insensitive and deterministic", "statement": "aircraft() and engine() ignore letter case; an aircraft code without wildcard characters gets its own record whatever the directory order; engine() ignores surrounding white space and returns the first table row whose name starts with the request, for every request that is a prefix of some name, and raises otherwise; a blank request therefore returns the first row.", "quantifier": "every table and every request string", "why_tests_cant": "all strings, all tables", "anchors": ["openap/prop.py:aircraft", "openap/prop.py:engine"]}
{"id": "C71", "title": "search_engine misses mixed-case engine names that engine() finds", "statement": "Whatever search_engine(q) lists, engine(q) finds. The converse holds for tables without lower-case letters; in the shipped table, for every engine whose name has a lower-case letter (85 of 426, such as Trent 772), engine(name) succeeds and search_engine(name) does not list it.", "quantifier": "every table and query", "why_tests_cant": "all strings", "anchors": ["openap/prop.py:search_engine", "openap/prop.py:engine"]}
{"id": "C72", "title": "Engine records are shared between callers", "statement": "A record returned by engine() is cached and shared: a modification by one caller is seen by every later call with the same request until 128 different other requests have been answered since, after which the table's data are returned again; a record returned by aircraft() is always fresh.", "quantifier": "every history of calls and caller-side modifications", "why_tests_cant": "call histories with aliasing", "anchors": ["openap/prop.py:engine", "openap/prop.py:aircraft"]}
{"id": "C73", "title": "Engine/aircraft mismatch is rejected", "statement": "Thrust accepts an engine exactly when some listed option is a substring of the request (case-insensitive) and the request is a prefix of a table name, or the check is overridden; so a strict prefix of a valid option can be rejected although its data are found.", "quantifier": "every aircraft record, engine table and request", "why_tests_cant": "all strings", "anchors": ["openap/thrust.py:Thrust.__init__"]}
{"id": "C74", "title": "Closest fix and airport minimise distance within the search box", "statement": "closest_fix returns the first fix within 1 degree in latitude and longitude that has the smallest great-circle distance, with that distance rounded down to metres, and raises ValueError when there is none; closest_airport returns the first airport within 2 degrees with the smallest squared difference in degrees, and None exactly when there is none.", "quantifier": "every table and position", "why_tests_cant": "all tables and positions", "anchors": ["openap/extra/nav.py:closest_fix", "openap/extra/nav.py:closest_airport"]}
{"id": "C75", "title": "When the closest airport or fix is the closest", "statement": "Away from the date line closest_fix gives the closest of all fixes whenever the distance it reports is below 6371 km times arcsin(cos lat sin 1 deg), and closest_airport gives None only when no airport is within 6371 km times arcsin(cos lat sin 2 deg). At every latitude from 60 to 88 there are tables for which closest_airport returns the farther airport; across the date line airports 0.2 degrees away are missed; with the shipped table it returns an airport more than three times as far as the closest one at 76.5 N 70 W.", "quantifier": "every table and position", "why_tests_cant": "all tables and positions", "anchors": ["openap/extra/nav.py:closest_airport"]}
{"id": "C76", "title": "Test data of the distribution fit are training data", "statement": "The goodness-of-fit error is computed on data all of which were used for the fit it rates: the test data are the training data without their first value (the code announces a 50-50 split); the parameters reported are fitted to one more value than the training data.", "quantifier": "every data set", "why_tests_cant": "all lists", "anchors": ["openap/extra/statistics.py:fit"]}
{"id": "C77", "title": "BADA3 objects as constructed only give idle fuel flow", "statement": "Every BADA3 drag, thrust and fuel flow object made by the constructors raises for every input (AttributeError, as no constructor sets the attribute sci; ValueError for an unknown phase or engine type), except FuelFlow.idle, which gives the descent coefficient per minute falling linearly with altitude. Each number of an object is the like-named entry of the aircraft record; a record passed as argument is used in place of the file; an error from reading the file is passed on. Thrust and FuelFlow cannot be constructed when all approach and landing coefficients are zero. With numpy assigned to sci: drag is the parabolic polar of the configuration, positive in flight, zero at rest and at least 2 W sqrt(cd0 cd2); climb thrust is the ISA thrust times a temperature factor in [0.6, 1]; cruise thrust is 0.95 of it; idle thrust without a configuration raises ValueError.", "quantifier": "every record, input and configuration", "why_tests_cant": "all inputs and records", "anchors": ["openap/addon/bada3.py:Drag", "openap/addon/bada3.py:Thrust", "openap/addon/bada3.py:FuelFlow", "openap/base.py:DragBase"]}
{"id": "C78", "title": "BADA3 nominal fuel flow and idle", "statement": "With sci supplied, nominal() is the larger of the burn in kg/min and the idle flow in kg/s, divided by 60 (the code says it must be at least idle): it is at least idle() exactly when the burn alone is or idle() is not positive, and a sixtieth of idle() whenever no thrust is needed. approach() is the larger of the two flows; enroute() is nominal() times the cruise factor.", "quantifier": "every record and input", "why_tests_cant": "all inputs and records", "anchors": ["openap/addon/bada3.py:FuelFlow.nominal", "openap/addon/bada3.py:FuelFlow.approach", "openap/addon/bada3.py:FuelFlow.enroute"]}
{"id": "C79", "title": "BADA3 overlay merge", "statement": "Merging BADA3 data into an aircraft record takes over every value the data give, keeps what the record has at every path not mentioned, merges nested records recursively, keeps the order of existing keys and appends new ones, and merging twice equals merging once.", "quantifier": "every pair of nested records", "why_tests_cant": "trees of unbounded depth", "anchors": ["openap/addon/bada3.py:bada3_aircraft"]}
{"id": "C80", "title": "Finite in, finite out", "statement": "No aero, geo, drag, thrust or fuel-flow function ever produces a missing value (NaN) from real inputs in its documented domain: no square root, logarithm, power, arcsine or division is evaluated outside its domain. (In exact arithmetic; overflow is a separate matter, see the property on fuel flow at speeds near zero.)", "quantifier": "all real inputs in the stated domains", "why_tests_cant": "all reals; a domain error could hide in a corner no test visits", "anchors": ["openap/aero.py", "openap/geo.py", "openap/drag.py", "openap/thrust.py", "openap/fuel.py"]}
{"id": "C81", "title": "Sea-level fuel flow deviates from the published Boeing method", "statement": "The conversion between flight and sea-level conditions differs from the published Boeing Fuel Flow Method 2 by exactly exp(-0.06 M^2) in the sea-level fuel flow and by exactly exp(0.054 M^2) in the CO/HC correction; it agrees at Mach 0 only.", "quantifier": "all speeds, altitudes below 145442 ft", "why_tests_cant": "all reals", "anchors": ["openap/emission.py:Emission._fl2sl"]}
{"id": "C82", "title": "Exact engine names are not always honoured", "statement": "engine(name) with the exact name of a table row returns that row for every row of the shipped table except three, which are shadowed by an earlier row: PW1923G, PW4X58 and Trent XWB-79; for PW4X58 the data returned differ.", "quantifier": "every row of the shipped table", "why_tests_cant": "needs all 426 rows against all earlier rows", "anchors": ["openap/prop.py:engine", "openap/data/engine/engines.csv"]}
{"id": "C83", "title": "Type codes are interpreted as file name patterns", "statement": "aircraft('*') succeeds on every non-empty directory and aircraft('a3*') succeeds on the shipped one instead of raising, and the aircraft returned depends on the order in which the directory is listed. Likewise aircraft('a32[01]') or aircraft('a32[0-1]') returns the first listed file that has one of these characters in that place, aircraft('a32[!01]') the first that has another character there, and ValueError is raised only if there is none.", "quantifier": "every directory content and order, every set and range of characters, every text around it", "why_tests_cant": "directory order is outside the control of a test", "anchors": ["openap/prop.py:aircraft"]}
{"id": "C84", "title": "Kinematic queries succeed and are ordered", "statement": "For every offered type code the kinematic model constructs and all 33 query methods return; minimum <= maximum; the default lies between them except for exactly three table entries (A333 maximum cruise altitude, B737 initial cruise altitude, B752 cruise range); descent and final-approach rates and landing acceleration are negative, everything else positive.", "quantifier": "every type code and query", "why_tests_cant": "complete shipped data", "anchors": ["openap/kinematic.py:WRAP", "openap/data/wrap"]}
{"id": "C85", "title": "The ice threshold does not depend on the root finder", "statement": "For mixing slopes between 0.5 and 8 Pa/K (110 hPa to sea level at efficiencies up to 0.4) critical_temperature_water_and_ice never fails for lack of a sign change, its bracket contains exactly one root, and the ice threshold lies strictly between 100 K and the water threshold.", "quantifier": "every pressure and efficiency in that range", "why_tests_cant": "existence and uniqueness of a root of a transcendental equation for a continuum of parameters", "anchors": ["openap/contrail.py:critical_temperature_water_and_ice"]}
{"id": "C86", "title": "Generated rows are kinematically consistent", "statement": "Without noise, each row's distance is the previous distance plus previous speed times dt and its altitude the previous altitude plus previous vertical rate times dt; only the descent cuts the altitude off at the ground.", "quantifier": "every parameter set, every pair of consecutive rows", "why_tests_cant": "unbounded trajectories", "anchors": ["openap/gen.py:FlightGenerator.climb", "openap/gen.py:FlightGenerator.descent", "openap/gen.py:FlightGenerator.cruise"]}
{"id": "C87", "title": "Flight segments come in order", "statement": "The seg column of a climb runs through TO, IC, PRE-CAS, CAS, MACH, CR without ever going back, provided the target speeds are not below lift-off speed; that of a descent through CR, MACH, CAS, POST-CAS, FA, LD. For every offered type climbs at 190 kt and Mach 0.35 or more satisfy the condition.", "quantifier": "every parameter set meeting the sign conditions, every pair of consecutive rows", "why_tests_cant": "an ordering along unbounded trajectories", "anchors": ["openap/gen.py:FlightGenerator.climb", "openap/gen.py:FlightGenerator.descent"]}
{"id": "C88", "title": "Slow descents never return", "statement": "descent() does not terminate when the descent Mach is below CAS / 340.294 (crossover altitude below sea level), unless one step of braking stops the aircraft. For every offered type descent(mach_const_de=m) hangs for all m from 0.01 to 0.4.", "quantifier": "every such parameter set", "why_tests_cant": "a test cannot observe non-termination", "anchors": ["openap/gen.py:FlightGenerator.descent"]}
{"id": "C89", "title": "Integer columns are truncations", "statement": "altitude, vertical_rate and groundspeed of every returned frame are h, vs and v in feet, feet per minute and knots truncated towards zero.", "quantifier": "every call that returns, every row, with or without noise", "why_tests_cant": "unbounded trajectories and arbitrary noise", "anchors": ["openap/gen.py:FlightGenerator.climb", "openap/gen.py:FlightGenerator.descent", "openap/gen.py:FlightGenerator.cruise", "openap/gen.py:FlightGenerator.complete"]}
{"id": "C90", "title": "Constant-speed segments have constant speed", "statement": "Without noise every CAS row of a climb or descent is at the frame's constant CAS and every MACH or CR row at its constant Mach; IC and PRE-CAS rows do not exceed the constant CAS; POST-CAS rows are not below the approach CAS; FA rows have the approach speed as true airspeed.", "quantifier": "every parameter set, every row", "why_tests_cant": "unbounded trajectories", "anchors": ["openap/gen.py:FlightGenerator.climb", "openap/gen.py:FlightGenerator.descent"]}
{"id": "C91", "title": "A climb is not a landing", "statement": "flight_phase_indices reports a landing only when the aircraft lands. (Fails: a flight recorded from 100 ft or more that climbs and then levels off at 1500 ft or more, never slower than 50 kt, is always reported as landing: final approach at the first sample and touch-down where the climb ends.)", "quantifier": "every trajectory of that shape, of any length", "why_tests_cant": "a family of trajectories of unbounded length", "anchors": ["openap/phase.py:FlightPhase.flight_phase_indices", "openap/phase.py:FlightPhase._get_fa_ld"]}
{"id": "C92", "title": "Defuzzification picks the maxima", "statement": "som and lom are the smallest and the largest point with maximal membership, mom is the mean of these points and lies between them, letter case of the mode does not matter, and other modes or arrays of different lengths raise ValueError.", "quantifier": "every pair of arrays and every mode string", "why_tests_cant": "all arrays of reals and all strings", "anchors": ["openap/extra/fuzzy.py:defuzz"]}
{"id": "C93", "title": "Interpolated membership", "statement": "interp_membership agrees with the table at its nodes, stays within the range of the table values inside the universe, and outside it is 0 by default or the value at the nearer end when zero_outside_x is False.", "quantifier": "every strictly increasing universe, table and point", "why_tests_cant": "all arrays of reals", "anchors": ["openap/extra/fuzzy.py:interp_membership"]}
{"id": "C94", "title": "Savitzky-Golay smoothing commutes with rescaling", "statement": "Smoothing y -> a*y + c with a >= 0 changes the output in the same way, and a rising line is reproduced at every sample including the ends (order at least 1). A falling line is not: its first output is off by slope*h*(h+1)/(2h+1), h the half window, because the padding uses the absolute value.", "quantifier": "every signal, window, order, scale and offset", "why_tests_cant": "all signals", "anchors": ["openap/extra/filters.py:SavitzkyGolay.filter"]}
{"id": "C95", "title": "Weighted filter is causal and commutes with rescaling", "statement": "Appending later samples to the signal does not change TWF's outputs for the earlier ones, and TWF of a*y + c is a*TWF(y) + c for every a and c, with non-finite outputs at the same places.", "quantifier": "every signal, window, scale and offset", "why_tests_cant": "all signals and continuations", "anchors": ["openap/extra/filters.py:TWF.filter"]}
{"id": "C96", "title": "Spline weights and times", "statement": "The local averages of the spline filter stay in the range of the data and its local variances are strictly positive (1 for constant data), so every weight handed to the fit is finite and positive; reversing the data reverses averages and variances, so the window is centred. Without interpolation there is one value per sample at the sorted times; with interpolation the times are the whole numbers from 0 up to but excluding the last time stamp, whatever the first time stamp is.", "quantifier": "every signal and spline fit", "why_tests_cant": "all signals", "anchors": ["openap/extra/filters.py:Spline.kernel", "openap/extra/filters.py:Spline.filter"]}
{"id": "C97", "title": "Airport data are read afresh, fix data are kept", "statement": "After any history of calls and replacements of the data files, airport and closest_airport answer from the file as it is now; fix and closest_fix answer from the file as it was at the first of their calls.", "quantifier": "every sequence of calls and file replacements", "why_tests_cant": "all histories", "anchors": ["openap/extra/nav.py:airport", "openap/extra/nav.py:closest_airport", "openap/extra/nav.py:fix", "openap/extra/nav.py:closest_fix"]}
{"id": "C98", "title": "Lookup of airports and fixes by name", "statement": "airport and fix ignore letter case and return the first row with the name; an unknown airport gives None, an unknown fix raises IndexError. A fix whose name has a lower-case letter, is read as missing (NA), or is repeated later in the file cannot be looked up.", "quantifier": "every table and name", "why_tests_cant": "all tables and strings", "anchors": ["openap/extra/nav.py:airport", "openap/extra/nav.py:fix"]}
{"id": "C99", "title": "Every shipped airport can be looked up", "statement": "Every one of the shipped airports is found by its code in any letter case with its own position, all of which are valid; the country is missing for exactly the 176 airports of Namibia, whose code NA is read as a missing value.", "quantifier": "every shipped airport and every spelling of its code", "why_tests_cant": "quantifies over the whole table and all spellings", "anchors": ["openap/extra/nav.py:airport", "openap/extra/nav.py:_read_airport", "openap/data/nav/airports.csv"]}
{"id": "C100", "title": "Data used by the distribution fit", "statement": "Whatever SciPy does, fit never uses the smallest or the largest value, so it raises unless there are at least three different finite values; normal fits fix no parameter, gamma fits fix a location below all data, other fits also a scale reaching above all data; models that are neither a string nor a list raise RuntimeError, and a model name SciPy does not know raises AttributeError on data that can be fitted.", "quantifier": "every data set, every model list, every SciPy behaviour", "why_tests_cant": "all lists and all library behaviours", "anchors": ["openap/extra/statistics.py:fit"]}
{"id": "C101", "title": "BADA4 objects cannot be used", "statement": "Whatever the model file contains, constructing a BADA4 Drag or FuelFlow raises (AttributeError when the file is complete); a Thrust object can be constructed, but all its thrust methods raise AttributeError for every input.", "quantifier": "every model file and input", "why_tests_cant": "all file contents and inputs", "anchors": ["openap/addon/bada4.py:Drag", "openap/addon/bada4.py:Thrust", "openap/addon/bada4.py:FuelFlow"]}
{"id": "C102", "title": "Which fuel model an object uses", "statement": "FuelFlow takes its coefficients from the first row of the fuel table with the requested type code (letter case ignored) and otherwise from the default row; synonyms are not used here. With its own row the model is scaled by 1 if the engine asked for has the name given in the row and otherwise by the ratio of the take-off fuel flows of the two engines; without a row it is scaled by the take-off fuel flow of the engine. With neither a row nor a default row the constructor raises IndexError.", "quantifier": "every database, type code, engine and option", "why_tests_cant": "all tables and strings", "anchors": ["openap/fuel.py:FuelFlow.__init__", "openap/fuel.py:FuelFlow._load_fuel_model"]}
{"id": "C103", "title": "Synonyms and engine options", "statement": "A type code without a file of its own raises ValueError unless use_synonym is set, and then gets the record of its first listed synonym. aircraft_engine_options never follows synonyms: it raises ValueError for every shipped synonym except crj9, which has a file of its own, so that its synonym entry is never used and available_aircraft(use_synonym=True) lists it twice. Emission, Thrust, Drag and FuelFlow reject such a code by default; WRAP accepts it.", "quantifier": "every database and type code", "why_tests_cant": "all tables and strings", "anchors": ["openap/prop.py:aircraft", "openap/prop.py:aircraft_engine_options", "openap/prop.py:available_aircraft", "openap/emission.py:Emission.__init__", "openap/thrust.py:Thrust.__init__", "openap/drag.py:Drag.__init__", "openap/fuel.py:FuelFlow.__init__", "openap/kinematic.py:WRAP.__init__"]}
{"id": "C104", "title": "Noise perturbs the noiseless trajectory only", "statement": "The same climb, descent or cruise call with and without enable_noise returns or not alike, with the same constants, number of rows, times and segments. Altitude, distance, speed and vertical rate differ by successive batches of standard normals times 7.5 m, 5 m, 0.5 m/s and 0.75 m/s, taken from the random stream as the noiseless call leaves it.", "quantifier": "every aircraft table, argument list and random stream", "why_tests_cant": "all random streams and arguments", "anchors": ["openap/gen.py:FlightGenerator.enable_noise", "openap/gen.py:FlightGenerator.climb", "openap/gen.py:FlightGenerator.descent", "openap/gen.py:FlightGenerator.cruise"]}
{"id": "C105", "title": "Where the numbers of a BADA3 file come from", "statement": "parse_opf_content takes each group of numbers from the first place after the first occurrence of its heading where CD is followed by enough numbers, whatever lies between, so a section with too few numbers silently takes those of a later section. Masses are multiplied by 1000 (reference, empty, maximum take-off, payload in file order) and the ceiling by 0.3048; drag coefficients come from the first CD row of each phase. Missing sections give zeros, a cruise correction of 1 and 8000 ft; a text without CD is accepted as an aircraft of zero mass. The only exception raised is ValueError, for a word made of number characters that is not a number.", "quantifier": "every file content", "why_tests_cant": "all texts: which place a backtracking pattern matches first", "anchors": ["openap/addon/bada3.py:parse_opf_content"]}
{"id": "C106", "title": "Engine type and number in a BADA3 file", "statement": "The engine type is decided by the words, in any letter case, between the first Actype and the end of the first line after it that starts with CD: turboprop, else jet, else piston, else electric, else turbofan. The number of engines is the first number there that stands before engine, else None. Without such a line the aircraft is a turbofan with unknown number of engines.", "quantifier": "every file content", "why_tests_cant": "all texts", "anchors": ["openap/addon/bada3.py:parse_opf_content"]}
{"id": "C107", "title": "BADA3 synonym lookup", "statement": "read_synonym returns the first well-formed line whose third word is the code in any letter case, with manufacturer and model as they stand and the file name cut to four characters. Codes that are the third word of no line raise ValueError, and lines that do not end in a slash are ignored. load_bada3 then reads exactly the file with that name and __.OPF.", "quantifier": "every synonym file, code and file system", "why_tests_cant": "all texts and codes", "anchors": ["openap/addon/bada3.py:read_synonym", "openap/addon/bada3.py:load_bada3"]}
{"id": "C108", "title": "How climb thrust varies", "statement": "Above 30000 ft, at equal Mach number, the thrust difference between two altitudes is 1.0824 minus 0.4204 times the Mach ratio, times the logarithm of the pressure ratio, whatever the climb rates, so below 2.57 times the reference Mach number thrust falls with altitude. Between 10000 and 30000 ft, at equal calibrated airspeed, thrust is proportional to the pressure to the power 0.8633 + 0.02667 per 1000 ft/min - 0.355 times the airspeed ratio, and below the reference altitude more climb rate means more thrust. Up to 10000 ft thrust is linear in the pressure.", "quantifier": "every engine, altitude, speed, climb rate and temperature offset", "why_tests_cant": "real altitudes, speeds and engine data", "anchors": ["openap/thrust.py:Thrust.climb", "openap/thrust.py:Thrust._dfunc", "openap/thrust.py:Thrust._nfunc", "openap/thrust.py:Thrust._mfunc"]}
{"id": "C109", "title": "BADA4 thrust: formula, temperature offset and lists", "statement": "With NumPy supplied as `sci`, `bada4.Thrust` with complete coefficients returns for numbers the pressure ratio times reference weight times the BADA4 thrust coefficient (`climb`, `takeoff`: MCMB; `cruise`: MCRZ; `idle`: LIDL); `takeoff` equals `climb`. The temperature offset dT only selects the flat or temperature rated regime (dT <= kink): it never enters the temperature, so all offsets on the same side of the kink give the same thrust, and `idle` ignores it. For lists of n /= 1 samples the result is an n x n table, not n thrusts: entry (i, j) is the thrust of sample j scaled by p_i/p_j. A list of offsets (length /= 1) raises ValueError in `climb`, `cruise` and `takeoff`, and so do lists of speeds and altitudes of different lengths in all methods.", "quantifier": "all coefficient sets of the BADA4 sizes, all real speeds, altitudes and offsets, all list lengths", "why_tests_cant": "Tests use one number at ISA; the offset's missing effect and the shape of list results need all inputs.", "anchors": ["openap/addon/bada4.py:140-305"]}
{"id": "C110", "title": "BADA4 drag: formula, continuity and compressibility", "statement": "With NumPy supplied, `bada4.Drag.clean` is, sample by sample, the BADA4 drag coefficient (with the divergent branch from M_max on) times dynamic pressure times area. For M_max in [0, 1) it is continuous in the airspeed for every speed >= 0, including at M_max and beyond Mach 1, and zero at zero speed; with non-negative coefficients the drag coefficient never falls with Mach number.", "quantifier": "all complete coefficient sets with M_max < 1, all masses, altitudes and speeds >= 0, all list lengths", "why_tests_cant": "Continuity and monotonicity over a continuum, for all coefficient files.", "anchors": ["openap/addon/bada4.py:36-137"]}
{"id": "C111", "title": "BADA4 fuel flow: formula, idle switch and missing lower limit", "statement": "With NumPy supplied, `bada4.FuelFlow.enroute` is computed sample by sample: the idle fuel flow when vs < -250 ft/min, otherwise the BADA4 polynomial in Mach and in the thrust coefficient balancing drag and the weight component along the path. The general value is not limited from below by the idle fuel flow: there is a coefficient set with positive idle fuel flow everywhere and negative enroute fuel flow in every descent of up to 250 ft/min. Samples whose vertical rate is missing (NaN), and only those, have a NaN fuel flow rather than the idle one. With a heating value of zero in the file, the idle and enroute fuel flows raise ZeroDivisionError for every list of flight conditions.", "quantifier": "all complete coefficient sets with non-zero heating value and reference mass, all real inputs with tas > 0 (>= 0 for lists)", "why_tests_cant": "Every threshold side and every list length; the negative fuel flow is a statement about all shallow descents.", "anchors": ["openap/addon/bada4.py:309-412"]}
{"id": "C112", "title": "BADA4 files: which one is read and what is taken from it", "statement": "`load_bada4` takes the first listed directory whose name begins with the upper-case code (an exact name is not preferred, so the result depends on listing order) and in it the first visible .xml file; ValueError if no directory matches, IndexError if the chosen one has no .xml file. The case of the code does not matter. Each class succeeds exactly when the required elements exist and their texts are numbers, and its parameters are the texts at the documented paths in document order; the drag paths `.//*/X/y` look below every element except directly below the root.", "quantifier": "all directory listings, all codes, all XML trees, any float parser", "why_tests_cant": "Quantifies over all directory contents and all documents.", "anchors": ["openap/addon/bada4.py:12-58", "openap/addon/bada4.py:143-172", "openap/addon/bada4.py:312-330"]}
{"id": "C113", "title": "Take-off, landing and phase indices are exactly these samples", "statement": "For an accepted trajectory flight_phase_indices reports: if a take-off roll (5 kt or more, accelerating below 30 kt) leads within 300 s to 200 ft before the data first leave 1500 ft, TO, IC and CL are the start of the roll, the first altitude step above 10 ft and the exit from 1500 ft, else TO and IC are None and CL is the first sample labelled climb; CR is the last climb sample and DE the first descent sample; if the final part below 1500 ft decelerates to taxi speed, FA, LD and END are its start, the last altitude step above 10 ft and the end of the deceleration, else FA is the last descent sample, LD is None and END the number of samples. _get_de reports a continuous descent exactly if no sample between is level; _get_cr needs 200 samples between climb and descent.", "quantifier": "every trajectory of equal-length real columns", "why_tests_cant": "All trajectories of any length; the exact sample is the claim.", "anchors": ["openap/phase.py:FlightPhase.flight_phase_indices", "openap/phase.py:FlightPhase._get_to_ic", "openap/phase.py:FlightPhase._get_fa_ld", "openap/phase.py:FlightPhase._get_de", "openap/phase.py:FlightPhase._get_cr"]}
{"id": "C114", "title": "Where each constant of a generated flight comes from", "statement": "Every constant of a returned climb, cruise or descent is the keyword argument if given, otherwise the default of its WRAP variable, or with random=True the point of that variable's range at the next draw of the stream, in a fixed order; a given keyword still consumes its draw. The cruise altitude is rounded to the nearest 100 ft (ties to the multiple of 200). The climb CAS is raised to the take-off speed only without random. Without noise climb and descent take six draws and cruise three with random, none otherwise.", "quantifier": "every WRAP table, bit generator, keyword combination and time step", "why_tests_cant": "All random streams and tables.", "anchors": ["openap/gen.py:FlightGenerator.climb", "openap/gen.py:FlightGenerator.descent", "openap/gen.py:FlightGenerator.cruise"]}
{"id": "C115", "title": "Small changes of the inputs make small changes of the outputs", "statement": "Jointly in all arguments: temperature, pressure, density and speed of sound, all eight airspeed conversions and the crossover altitude, the distance between two points, take-off and idle thrust, and fuel flow at a thrust are continuous everywhere; drag (clean, with wave drag, and with flaps and gear at flap angles >= 0) and enroute fuel flow wherever the airspeed is not zero; climb and cruise thrust wherever the altitude is not 30000 ft; NOx, CO and HC below 145442 ft for engines with increasing certified fuel flows. At zero airspeed clean drag does jump: at zero vertical rate it holds the term k (m g)^2 / 0.001, at any other rate that term is gone.", "quantifier": "all real inputs and parameters in the stated domains", "why_tests_cant": "Continuity is a statement about limits at every point of a product space.", "anchors": ["openap/aero.py", "openap/geo.py:distance", "openap/drag.py", "openap/thrust.py", "openap/fuel.py", "openap/emission.py"]}
{"id": "C116", "title": "The fuel correction factor of an engine record", "statement": "engine(name)[\"fuel_ch\"] is 6.7e-7 for an engine without a published cruise consumption; otherwise it is (cruise_sfc - ff_to / (max_thrust / 1000)) / (cruise_alt * 0.3048) rounded to the nearest eighth decimal, ties to even. For every engine of the shipped table, and so for every request that finds one, it is a positive number between 4.7e-7 and 7.9e-7.", "quantifier": "every engine row; every request against the shipped table", "why_tests_cant": "All rows and all request strings.", "anchors": ["openap/prop.py:engine"]}
{"id": "C117", "title": "Reading outgoing longwave radiation from a file", "statement": "load_olr reads the first of olr, OLR, olr_avg, toa_lw_all_daily that the file holds and prefers lat over latitude and lon over longitude; a file without any of them, or without a time dimension, raises ValueError. For one place and time the result is the stored value on a grid point, the weighted mean of the eight corners within a cell, a number between the smallest and largest stored value anywhere within the grid, and NaN beyond the first or last coordinate of any dimension (longitudes are not wrapped). Coordinates and dimensions may be in any order. Arrays of n places and n times give an n x n x n array in the file's dimension order, not one value per place; each entry is the corresponding single call.", "quantifier": "every file of the documented layout with numeric values, every request", "why_tests_cant": "All grids, orders and requests.", "anchors": ["openap/contrail.py:load_olr"]}
{"id": "C118", "title": "Gradients taken with JAX are the true derivatives, except at the kinks", "statement": "Differentiating the JAX versions of temperature, pressure, density, speed of sound, all eight airspeed conversions, pressure and crossover altitude, distance, bearing, destination, drag, thrust, fuel flow and emissions, on their own or inside any differentiable program, gives exactly the derivative of the function NumPy computes, at every point away from its kinks: 11000 m; dT of -25 and 15; zero speed for conversions through calibrated airspeed; same or antipodal places for distance; due north for bearing; the poles and a half turn for the destination; airspeed zero and the lower bound of dynamic pressure for drag; 10 kt, zero rate, 10000 ft and 30000 ft for climb thrust; the certified fuel flows for NOx, CO, HC. Drag is exact also at the critical Mach number. At the kinks: at the tropopause the reported temperature gradient is -0.00325 K/m, the mean of both sides, and no derivative exists; at zero speed cas2tas and tas2cas, and between the same or antipodal places distance, have no finite gradient.", "quantifier": "every normed space of parameters, every point and direction, every aircraft and engine record", "why_tests_cant": "Derivatives are limits; the claim covers a continuum of points and all directions.", "anchors": ["openap/jax.py", "openap/backends/jax_backend.py", "openap/aero.py", "openap/geo.py", "openap/drag.py", "openap/thrust.py", "openap/fuel.py", "openap/emission.py"]}
{"id": "C119", "title": "Distance, bearing and destination agree along a whole route", "statement": "Flying `distance` along `bearing` to a place ends at that place: `latlon` returns its latitude, and its longitude up to whole turns (poles aside). Two points on one track are exactly as far apart as the distances flown to them, up to half the circumference. A point part of the way splits the distance into the part flown and the rest, and flying on from it by the bearing to a later point of the track stays on the track.", "quantifier": "all starting places except the poles, all destinations, all altitudes above -6371 km, all distances in the stated range", "why_tests_cant": "Holds for a continuum of routes; the composition of three functions must cancel exactly.", "anchors": ["openap/geo.py:distance", "openap/geo.py:bearing", "openap/geo.py:latlon"]}
{"id": "C120", "title": "The speed of least drag and of least fuel flow", "statement": "With wave drag off, level-flight `Drag.clean` falls up to and rises beyond the speed sqrt(2 m g / (rho S) sqrt(k / cd0)), where it equals 2 sqrt(cd0 k) m g; `FuelFlow.enroute` in unaccelerated level flight is least at exactly that speed and nowhere else. That speed is the same equivalent airspeed at every altitude and temperature and grows with mass and altitude.", "quantifier": "all aircraft with positive area and polar coefficients, all masses whose lift at least meets the lower bound of dynamic pressure, all altitudes, temperature offsets and speeds >= 0", "why_tests_cant": "A minimum over a continuum of speeds, for all aircraft.", "anchors": ["openap/drag.py:Drag.clean", "openap/fuel.py:FuelFlow.enroute", "openap/aero.py:tas2eas"]}
{"id": "C121", "title": "Rounding errors of the results in floating point", "statement": "Computed in any IEEE binary format from single to quadruple precision with round-to-nearest and a mathematical library accurate to 4 units in the last place, the results differ from the exact formulas, in unit roundoffs u (2^-53 for float64, 2^-24 for float32), relatively by at most: temperature 10, density 108, pressure 121, speed of sound 8.2 (|h| <= 50 km, any dT); tas2mach and mach2tas 9.5, eas2tas and tas2eas 57; cas2tas 228 + 4.5e6/v^2, tas2cas 485 + 2.5e7/v^2, cas2mach 238 + 4.5e6/v^2 (30-400 m/s), mach2cas 520 + 320/m^2 (0.11-1.1) between -1 and 15 km; clean drag without wave drag 480. Distance errs by at most 640 u (R + h) away from the poles and antipodes: below a micrometre in float64, up to 250 m in float32, whatever the distance. Up to 0.001 degrees from the poles and `gap` metres short of the antipode, with gap at least 25 and 3e9 sqrt(u), it errs by at most (7.42e9/gap + 36) u (R + h): 8 cm in float64 up to 20015 km, a tenth of a millimetre up to 19900 km, and the root and the inverse sine are never NaN there. Fuel flow at a thrust errs by at most 690 u, in flight by at most 12500 u, of the flow at unlimited thrust; every shipped fuel model has coefficients in the range of this claim. Take-off thrust from 0 to 400 kt errs by at most 2900 u of the static thrust. CO2, H2O, soot and SOx err relatively by at most 2.1 u; NOx, CO and HC up to 600 kt by at most 3480 u and 3560 u of what the engine's highest index would give in the same conditions, whichever segment of the certification table is met; every shipped engine is in the range of this claim. The crossover altitude of 30-400 m/s and Mach 0.1-1 errs by at most (8.8e6 + 9.5e10/v^2 + 8.3e5/m^2) u metres for |dT| <= 100 K: 22 nm in float64 and, from 80 m/s and Mach 0.4, 2 m in float32. The altitude of a pressure of 1000 to 120000 Pa errs by at most 1.22e6 u metres for |dT| <= 100 K, on either side of the tropopause and at it: 0.14 nm in float64, 8 cm in float32. None of these overflows.", "quantifier": "all machines, formats and arguments in the stated ranges; all aircraft and engine data in the stated ranges", "why_tests_cant": "Every rounding mode at ties, every library and every input: more cases than can be run.", "anchors": ["openap/aero.py", "openap/drag.py:Drag.clean", "openap/geo.py:distance", "openap/fuel.py:FuelFlow.at_thrust", "openap/fuel.py:FuelFlow.enroute", "openap/thrust.py:Thrust.takeoff", "openap/emission.py:Emission", "openap/backends/numpy_backend.py"]}
{"id": "C122", "title": "Calls with symbols build a graph that evaluates to the direct result", "statement": "The aero functions, distance, bearing and destination, drag, thrust, fuel flow and emissions can be called with CasADi symbols or JAX tracers, on their own or composed: the expression graph they return, evaluated later with any backend and any values of the symbols, is exactly what the function returns when it is called with those values. No function decides anything on the value of an argument while the graph is built, the tables given to the interpolation hold numbers only (CasADi accepts nothing else), and the graph contains no symbols but those of the arguments.", "quantifier": "all arguments, which may be graphs themselves, all backends, all later values, all aircraft and engine records, all switches (wave drag, gear, thrust limit)", "why_tests_cant": "A graph stands for infinitely many evaluations, and the claim covers every composition of calls.", "anchors": ["openap/casadi.py", "openap/jax.py", "openap/backends/casadi_backend.py", "openap/extra/__init__.py:ndarrayconvert", "openap/aero.py", "openap/geo.py", "openap/drag.py", "openap/thrust.py", "openap/fuel.py", "openap/emission.py"]}
{"id": "C123", "title": "jax.grad and CasADi's derivatives agree with the true derivative as well", "statement": "Gradients by going back through the code (`jax.grad`, `casadi.gradient`) and directional derivatives by CasADi (`casadi.jtimes`) of temperature, pressure, density, speed of sound, all eight airspeed conversions, pressure and crossover altitude, distance, bearing, destination, drag, thrust, fuel flow and emissions, with respect to any number of inputs and inside any differentiable program, are exactly the partial derivatives of the function NumPy computes, away from the same kinks as with JAX going forward. It does not matter which weights the library gives to operands of a maximum or minimum that tie. NOx, CO and HC by CasADi: between the lowest and the highest certified fuel flow, since its interpolant continues beyond them.", "quantifier": "all numbers of inputs, all points away from the stated kinks, all directions, all weights of ties, all aircraft and engine data with the stated signs", "why_tests_cant": "A derivative is a limit; the claim holds on a continuum of points, for four differentiation modes and any composition.", "anchors": ["openap/jax.py", "openap/casadi.py", "openap/backends/jax_backend.py", "openap/backends/casadi_backend.py", "openap/aero.py", "openap/geo.py", "openap/drag.py", "openap/thrust.py", "openap/fuel.py", "openap/emission.py"]}
{"id": "C124", "title": "Which arguments of a constructor call reach what", "statement": "`Thrust`, `FuelFlow`, `Emission` (parameters ac, eng, backend), `Drag` (ac, wave_drag, backend) and `WRAP` (ac) return exactly for legal calls whose record selection succeeds. The backend passed, or NumPy if none or a false value is passed, is the one of the object, of its aero functions and, in a `FuelFlow`, of its thrust and drag models; `wave_drag` passed to `FuelFlow` reaches its drag model. Besides their parameters the classes read only the keywords use_synonym, force_engine (`Thrust`, `FuelFlow`) and wave_drag (`FuelFlow`): any other keyword, misspelt or meant for another class, changes nothing and raises nothing. A call without ac raises TypeError, one whose ac is not a string AttributeError. The classes of `openap.casadi` and `openap.jax` are the base classes with their backend; passing them `backend`, or more positional arguments than ac and eng (only ac for `Drag`), raises TypeError. `get_backend` knows exactly numpy, casadi and jax.", "quantifier": "all calls with positional and keyword arguments of any number, order and spelling whose values are None, booleans, integers, strings or backends; all data directories", "why_tests_cant": "The set of possible calls is infinite; a silent no-op leaves nothing to observe in a test.", "anchors": ["openap/base.py", "openap/drag.py:Drag.__init__", "openap/thrust.py:Thrust.__init__", "openap/fuel.py:FuelFlow.__init__", "openap/emission.py:Emission.__init__", "openap/kinematic.py:WRAP.__init__", "openap/casadi.py", "openap/jax.py", "openap/backends/__init__.py"]}
{"id": "C125", "title": "Keywords the trajectory generator reads", "statement": "`climb` reads only dt, random, cas_const_cl, mach_const_cl and alt_cr, `descent` dt, random, withcr, cas_const_de, mach_const_de and alt_cr, `cruise` dt, random, range_cr, alt_cr and mach_cr, `complete` the union: every other keyword is ignored without an error. True and False act as 1 and 0, and any nonzero number acts as True for random and withcr. In particular m_cr, which the module documentation passes to `cruise` and `complete`, has no effect, and the documented call of `complete` raises TypeError for every available aircraft.", "quantifier": "all keyword dictionaries of numbers and booleans, all generators, all random generators", "why_tests_cant": "The set of keyword dictionaries is infinite, and an ignored keyword raises nothing.", "anchors": ["openap/gen.py:FlightGenerator.climb", "openap/gen.py:FlightGenerator.descent", "openap/gen.py:FlightGenerator.cruise", "openap/gen.py:FlightGenerator.complete"]}
{"id": "C126", "title": "What a phase label depends on", "statement": "`FlightPhase` labels depend on nothing but the data of their own window. Shifting all times by one amount, or giving times and window length in another unit, changes no label. Two windows (neither the last of its flight) whose samples can be paired off with equal altitude, speed and vertical rate get the same label, whatever the flights, the times and the window lengths. Labelling a recording again after more samples have arrived changes no label other than NA. Receiving every sample k times gives every label k times.", "quantifier": "all recordings in order of time with or without missing values, all windows, all continuations, all shifts and units, all k >= 1", "why_tests_cant": "Relates two runs on different inputs of any length; no finite set of pairs covers it.", "anchors": ["openap/phase.py"]}
{"id": "C127", "title": "Level flight at one equivalent airspeed, fuel per distance", "statement": "Drag (clean without wave drag, or with flaps and gear) and fuel flow of `FuelFlow.enroute` are equal at all altitudes and temperatures at which the equivalent airspeed and the ratio of vertical rate to airspeed are equal; so in level flight at constant equivalent airspeed the fuel per distance strictly falls with altitude. An aircraft c times as heavy at sqrt(c) times the speed has c times the drag and thrust. Below the speed of least drag, flying faster burns less fuel per distance. With or without wave drag the fuel flow is bounded, so fuel per distance tends to zero with speed: there is no speed of least fuel per distance, except within a speed range.", "quantifier": "all airframes and polars, all masses, speeds, altitudes, temperatures", "why_tests_cant": "Compares pairs of flights on a continuum and makes a claim about a limit.", "anchors": ["openap/drag.py", "openap/fuel.py", "openap/aero.py"]}
{"id": "C128", "title": "Fuel flow is NaN at speeds near zero", "statement": "`FuelFlow.at_thrust` and `FuelFlow.enroute` return a number for every thrust and state of flight. (Fails: the thrust limiter takes exponentials that overflow. Up to 14.2 times the maximum thrust of the engines in double precision, 1.78 times in single precision (JAX's default), nothing overflows. When the first exponential overflows the result is the upper limit of the fuel flow; when both do it is NaN, which is the case from 17 times, in single precision from 3.2 times the maximum thrust. Computing the required thrust itself overflows nowhere near the range of flight. In slow level flight the induced drag is that large: for every aircraft offered with synonyms and its default engine, at or above the operating empty mass and sea level, the fuel flow is NaN at 5 kt or less, in single precision at 12 kt or less.)", "quantifier": "all overflow thresholds of the two formats, all thrusts, all states with moderate magnitudes, all shipped aircraft", "why_tests_cant": "The thresholds are a matter of all thrusts and all aircraft; tests at flying speeds never meet them.", "anchors": ["openap/fuel.py:FuelFlow.at_thrust", "openap/fuel.py:FuelFlow.enroute", "openap/drag.py", "openap/data"]}
{"id": "C129", "title": "Arrays of any shape", "statement": "Every method of Drag, Thrust, FuelFlow and Emission called on arrays of one shape, numbers and one-element arrays returns the array of the scalar results. (Fails when a shape has axes of length 1 that are not leading. Shapes without axes of length 1, preceded by any number of them, work: the result has the shape without the leading axes, and is a number when no argument is an array of the common shape. For a column, shape (n, 1) with n >= 2: clean drag without wave drag returns a vector; `FuelFlow.enroute` returns an n by n matrix whose entry (i, j) combines the drag of state j with the weight, flight path and acceleration of state i; clean drag with wave drag, nonclean drag with a column of flap angles and takeoff fuel flow with a column of throttle settings return n by n matrices too. A list of landing gear flags with none or with two or more is rejected.)", "quantifier": "all shapes with any number of axes, all contents, all choices of number, one-element array or array per argument, all data records", "why_tests_cant": "Shapes and contents are unbounded, and the wrong result is returned without an error.", "anchors": ["openap/extra/__init__.py:ndarrayconvert", "openap/drag.py", "openap/thrust.py", "openap/fuel.py", "openap/emission.py"]}
{"id": "C130", "title": "Shapes with the JAX backend, and what jax.grad accepts", "statement": "With JaxBackend every method of Drag, Thrust, FuelFlow and Emission on arrays of one shape, NumPy's or JAX's, numbers and scalars returns the JAX array of that shape with the scalar results (also for shapes with axes of length 1, where NumPy fails, C129), and on numbers a scalar, so that `jax.grad` can differentiate it by any argument. (The second part fails: on Python numbers only, the result is an array of shape (1,) and not a number. With JAX scalars among the arguments the result is a scalar iff one of certain arguments is a JAX scalar: any argument for thrust, NOx, CO, HC and `at_thrust`; mass, tas, alt, dT, and vs without wave drag, for `clean` and `enroute`; any but the flap angle for `nonclean`; tas or alt for the takeoff fuel flow. Hence `jax.grad` fails by acc of `enroute`, by throttle of `takeoff`, by flap_angle of `nonclean` and by vs with wave drag when the other arguments are numbers, and works by all others.)", "quantifier": "all shapes, all contents, all choices of number, scalar, one-element array or array of either library per argument, omitted optional arguments, all data records", "why_tests_cant": "Shapes, contents and combinations of argument kinds are unbounded or too many to list by hand.", "anchors": ["openap/extra/__init__.py:ndarrayconvert", "openap/backends/jax_backend.py", "openap/drag.py", "openap/thrust.py", "openap/fuel.py", "openap/emission.py"]}
{"id": "C131", "title": "Arrays of integers", "statement": "With NumPy every method gives for arrays of integers, of any of the eight integer types, what it gives for the equal floats. (Fails. It holds for drag, takeoff, cruise and idle thrust, fuel flow at a thrust, takeoff fuel flow, CO, HC, soot and SOx without restriction, and for `enroute` if mass times acceleration is representable whenever both are integers; it holds for all methods on Python integers and lists of them up to 1e9. The climb thrust at or below 10000 ft uses the square of the vertical rate modulo 2 to the number of bits, and below 10000 ft is too large whenever the square is not representable: beyond 11, 15, 181, 255, 46340 and 65535 ft/min for int8, uint8, int16, uint16, int32 and uint32. NOx at an unsigned altitude below 12900 ft is too large by a factor between 1.018 and 1.13. CO2 and water of an integer fuel flow wrap around. With 8 bits NOx, CO2 and water raise OverflowError.)", "quantifier": "all integer types, all representable integers, all mixtures of integer and float arguments, all data records", "why_tests_cant": "The failures begin at thresholds depending on the type of the array; a test picks one type and a few values.", "anchors": ["openap/drag.py", "openap/thrust.py:Thrust.climb", "openap/fuel.py", "openap/emission.py:Emission.nox", "openap/emission.py:Emission.co2", "openap/extra/__init__.py:ndarrayconvert"]}
{"id": "C132", "title": "jax.grad of the fuel flow is NaN above 1.8 times the maximum thrust", "statement": "Wherever `FuelFlow.at_thrust` and `FuelFlow.enroute` return a number, `jax.grad`, `jax.jvp`, `casadi.gradient` and `casadi.jtimes` return its derivative. (Fails: the derivative of the thrust limiter divides one overflowed exponential by another. With both libraries, going forward and back, the derivative of `at_thrust` is that of the exact function up to 1.78 times the maximum thrust of the engines in single precision (JAX's default), 14.2 times in double precision, and NaN from 1.81, in double precision 14.23 times on, while the fuel flow is finite up to 3.15, in double precision 16.9 times. When `enroute` requires that much thrust, its derivative by any of mass, airspeed, altitude, vertical speed, acceleration and temperature shift is NaN, whichever of them are differentiated. For every aircraft offered with synonyms and its default engine, in level flight at or above the operating empty mass and sea level, this is so at 15 kt or less in single and 5.5 kt or less in double precision.)", "quantifier": "all overflow thresholds of the two formats, all thrusts, all tangents, all states with moderate magnitudes, all choices of differentiated arguments, all shipped aircraft", "why_tests_cant": "The value looks right where the derivative is NaN, and the thresholds are a matter of all thrusts and all aircraft.", "anchors": ["openap/fuel.py:FuelFlow.at_thrust", "openap/fuel.py:FuelFlow.enroute", "openap/jax.py", "openap/casadi.py", "openap/data"]}
{"id": "C133", "title": "Vectors of different lengths are rejected", "statement": "Every method of `Drag`, `Thrust`, `FuelFlow` and `Emission`, called on numbers and vectors of NumPy or JAX, raises exactly when two of its numeric arguments are vectors of different lengths, neither of them 1. Otherwise it returns a vector of the common length, or a single number when every argument is a number or has one element. No result is silently truncated, repeated or an outer product, whichever arguments a particular formula uses. The flag `limit` does not count; the landing gear flag must be a number or have one element.", "quantifier": "all numbers of arguments given as vectors, all lengths, all values, both libraries, all parameters", "why_tests_cant": "The shapes of up to seven arguments combine in endlessly many ways, and some arguments enter a formula only inside a branch.", "anchors": ["openap/extra/__init__.py:ndarrayconvert", "openap/drag.py", "openap/thrust.py", "openap/fuel.py", "openap/emission.py"]}
{"id": "C134", "title": "Relative humidity of moist air", "statement": "For every mixture of water vapour and dry air, `relative_humidity` called with its specific humidity q, total pressure and temperature returns the ratio of vapour pressure to saturation pressure. (Fails: it returns that times 1 + q 174.46/287.05, because the pressure of the mixture is used for that of dry air. It is never too low, exact for dry air only, too high by at most 2.5 % up to 40 g/kg and 0.0125 % up to 0.2 g/kg; so ice-supersaturated air is always recognised, and subsaturated air is taken for supersaturated exactly within that factor of saturation.)", "quantifier": "all partial densities, all temperatures, both phases", "why_tests_cant": "Comparing the code with its own formula cannot show the difference from the definition of relative humidity.", "anchors": ["openap/contrail.py:relative_humidity"]}
{"id": "C135", "title": "Contrail thresholds against the exact Schmidt-Appleman criterion", "statement": "Exhaust mixing with ambient air follows a line of slope G through the temperature and vapour pressure of the air, and a contrail forms when the line reaches the saturation curve `saturation_pressure_over_water`. For every pressure and efficiency with G between 0.5 and 8 Pa/K there is exactly one temperature below which contrails form in air saturated over water and above which they form in no air that is not supersaturated over water; `critical_temperature_water` is within 0.1 K of it. In air saturated over ice, contrails form at and below the ice threshold that `critical_temperature_water_and_ice` returns, and do not form from 0.01 K above it.", "quantifier": "all pressures, all efficiencies, all ambient temperatures from 123 K to 332 K, all humidities", "why_tests_cant": "The function is an empirical fit; tests compare it with a few tabulated values, not with the criterion along the whole curve.", "anchors": ["openap/contrail.py:critical_temperature_water", "openap/contrail.py:critical_temperature_water_and_ice", "openap/contrail.py:saturation_pressure_over_water", "openap/contrail.py:saturation_pressure_over_ice"]}
{"id": "C136", "title": "Generated flights respect the operating limits of the aircraft (Fails for five offered types)", "statement": "A noise-free climb or descent on a schedule of the usual order never has a row with a calibrated airspeed above its constant CAS (by more than 0.001 %) or a Mach number above its constant Mach (by more than 0.02 %), whatever the time step. For every type code that `available_aircraft` offers, except c550, c25a, c525, c56x and pc24, every row of `climb`, `cruise`, `descent` and `complete` with default speeds and altitude and a time step of at most 10 s stays within `mmo`, `vmo` and `ceiling` of `prop.aircraft`. Those five share the record of a jet limited to Mach 0.70 and 270 kt but fly on the kinematic table of a larger aircraft: every cruise row and the first descent row are at Mach 0.74 or more, and the constant CAS of climb and descent exceeds 271 kt.", "quantifier": "all offered types, all time steps up to 10 s, all cruise ranges, all seeds, all rows of the flight", "why_tests_cant": "A flight has thousands of rows and depends on the time step; the speed between the phases of a climb or descent is not one of the tabulated constants.", "anchors": ["openap/gen.py:FlightGenerator.climb", "openap/gen.py:FlightGenerator.descent", "openap/gen.py:FlightGenerator.cruise", "openap/gen.py:FlightGenerator.complete", "openap/prop.py:aircraft", "openap/data/wrap", "openap/data/aircraft"]}
{"id": "C137", "title": "The phase labels of plain situations: climb and descent above 300 ft/min, fast level flight is cruise, slow level flight and aircraft on high airports are LVL", "statement": "For a trajectory with sorted times and any positive window length, and any window but the last: if every sample has an altitude and a rate of climb above 300 ft/min (below -300 ft/min), `phaselabel` gives CL (DE) at whatever altitude and whatever, or missing, speed, and 300 is the exact bound; if every rate of climb is within 10 ft/min, samples at 29500 ft or more and 410 kt or more are CR, samples at 200 ft or more and at most 300 kt are LVL (so also a turboprop in cruise and an aircraft parked at an airport above 200 ft), constant whole altitudes and speeds in between are CR or LVL by an explicit comparison of distances, and samples at or below 0 ft are GND below 100 kt and LVL from 100 to 300 kt. A noise-free `FlightGenerator.cruise` of every offered type, random or not, with the table's Mach number and altitude is labelled CR in every window but the last.", "quantifier": "all trajectories, all window lengths, all windows whose samples satisfy the conditions; all offered types, time steps and seeds", "why_tests_cant": "The label is the winner of a comparison of fifteen interpolated membership curves of window means; tests check a few recorded flights.", "anchors": ["openap/phase.py:FlightPhase.phaselabel", "openap/phase.py:FlightPhase.set_trajectory", "openap/gen.py:FlightGenerator.cruise"]}
{"id": "C138", "title": "Cruise thrust covers cruise drag at the aircraft file's cruise point up to MTOW for 34 offered codes, only below MTOW for 20, and at no mass for 4", "statement": "For every code that `available_aircraft(use_synonym=True)` offers, `Thrust` with the default engine and `Drag` (both with synonyms), at the cruise height and Mach number of the aircraft file, in the standard atmosphere and without wave drag: `Thrust.cruise` exceeds `Drag.clean` at every mass from 0 to MTOW, except that for a124, a306, a321, a332, a333, a343, a359, a388, b38m, b39m, b3xm, b744, b748, b772, b773, b77l, b77w, b788, b789 and md11 it does so at every mass up to the maximum landing weight and falls short at MTOW and above, and for c550, c25a, c525 and c56x it falls short at every mass from the empty weight up. (Fails as a general expectation: the models then say that the type cannot hold its own published cruise.)", "quantifier": "all offered type codes, all masses", "why_tests_cant": "Thrust and drag come from separate fitted models and files that no test ever puts side by side.", "anchors": ["openap/thrust.py:Thrust.cruise", "openap/drag.py:Drag.clean", "openap/data/aircraft", "openap/data/engine/engines.csv", "openap/data/dragpolar"]}
{"id": "C139", "title": "At idle every offered type decelerates or descends", "statement": "For every code that `available_aircraft(use_synonym=True)` offers, `Thrust` with the default engine and `Drag` (both with synonyms): `descent_idle(tas, alt, dT)` is less than `clean(mass, tas, alt, vs, dT)`, with or without wave drag, at every mass from the empty weight, every speed up to 800 kt, every altitude from 0 ft, every temperature shift and every vertical speed up to 20 % of the speed. Behind it: take-off thrust of any engine with a bypass ratio up to 16 is at most 1.0264 times the rated thrust of all engines under the same conditions, and above 1.025 times it when standing at sea level with a shift of 15 K.", "quantifier": "all offered type codes, masses, speeds, altitudes, temperature shifts and vertical speeds in the stated ranges", "why_tests_cant": "Thrust and drag come from separate fitted models; a descent simulation relies on their order at every state it may pass through.", "anchors": ["openap/thrust.py:Thrust.descent_idle", "openap/thrust.py:Thrust.takeoff", "openap/drag.py:Drag.clean", "openap/data/aircraft", "openap/data/engine/engines.csv", "openap/data/dragpolar"]}
{"id": "C140", "title": "The mass from from_range includes the fuel for the distance (fails when the distance is in nautical miles, as documented)", "statement": "With load factor 0 `from_range` returns the empty weight plus the fuel for the distance. For every code that `available_aircraft(use_synonym=True)` offers, except crj9 for which `from_range` raises KeyError, and every distance from 20 % to 100 % of the range in its file, this fuel is compared with what `FuelFlow.enroute` burns over the distance in level cruise at the file's height and Mach number in the standard atmosphere. Read in nautical miles, as the docstring says, it is less than the burn at every mass from the empty weight up for 39 codes (among them a320, a332, b38m, b744, b77w, e190), more than the burn at every mass up to MTOW for a310, a318 and a319, and for the other 15 codes more than the burn at the empty weight and less than that at MTOW. Read in kilometres it is short at every mass only for b762, b763, c550, c25a, c525 and c56x, enough at every mass up to MTOW for 29 codes, and in between for the other 22.", "quantifier": "all offered type codes, all distances from 20 % to 100 % of the range in the file, all masses", "why_tests_cant": "It relates the mass estimate to the drag and fuel models over a whole range of distances and masses; a test would have to integrate a cruise per type.", "anchors": ["openap/mass.py:from_range", "openap/fuel.py:FuelFlow.enroute", "openap/drag.py:Drag.clean", "openap/data/aircraft", "openap/data/fuel/fuel_models.csv"]}
{"id": "C141", "title": "More fuel flow means more NOx, and CO and HC per kg are worst at idle (fails for listed engines)", "statement": "For every shipped engine on any aircraft with a positive engine count, at every TAS, temperature offset and altitude up to 145442 ft: `Emission.nox` grows strictly with the fuel flow and does not fall per kg of fuel, for every engine except TIO-540-J2B2, whose NOx per kg falls somewhere. `Emission.co` per kg of fuel does not rise with the fuel flow as long as the sea-level equivalent fuel flow per engine is at most the climb-out value of the databank, for every engine except exactly CFM56-5B1/2, CFM56-5B2/2, CFM56-5B4/2, CFM56-7B20/2 and TIO-540-J2B2. CO per kg at or below the idle fuel flow is the largest at any fuel flow, for every engine except exactly the same without CFM56-7B20/2. HC per kg at or below the idle fuel flow is the largest at any fuel flow, for every engine except exactly fourteen (seven CFM56-5B../2 and ../2P, V2531-E5, PW1215G, PW1217G, Trent 970-84, 970B-84, 972-84, 972E-84).", "quantifier": "all shipped engines, all fuel flows, speeds, altitudes up to 145442 ft and temperature offsets", "why_tests_cant": "It compares all pairs of fuel flows for 426 engines at every flight condition; tests sample a few.", "anchors": ["openap/emission.py:Emission.nox", "openap/emission.py:Emission.co", "openap/emission.py:Emission.hc", "openap/data/engine/engines.csv"]}
{"id": "C142", "title": "Which objects influence each other", "statement": "In a program that creates `Thrust`, `Drag`, `FuelFlow` and `Emission` objects and calls `prop.aircraft` and `prop.engine` in any order: (1) if it changes no record, each call raises what it raises in a fresh interpreter or gives an object that reads the same numbers as in a fresh interpreter, then and later, in spite of the 128-entry cache of `prop.engine`. (2) If it does change records, an object is still affected only by changes to its own records. A `Thrust` is affected by nothing after its creation. (3) No two objects have an aircraft or polar record in common; a `FuelFlow` has one aircraft record and its `Drag` another. (4) `FuelFlow` and `Emission` objects whose engine was given by the same string have one engine record in common unless 128 other engine strings were asked for in between. A change to it (for example `fuelflow.engine['max_thrust'] = x`) changes the rated thrust used by `at_thrust` of all these `FuelFlow` objects but not their fuel scale, thrust or drag, and changes all fuel flows and indices of these `Emission` objects. (5) A `Thrust` created later reads the changed record, but only if the string was upper case. (6) A change to the aircraft or polar record of a `Drag` changes the airframe or the polar it computes with; a change to the aircraft record of a `FuelFlow` changes its number of engines only; a change to the aircraft record of an `Emission` changes nothing it computes.", "quantifier": "all programs (sequences of constructor calls, record requests and changes to records), all aircraft and engine strings, any data files", "why_tests_cant": "Sharing depends on the whole history of calls and on cache eviction; tests create a few objects and do not modify records.", "anchors": ["openap/prop.py:engine", "openap/prop.py:aircraft", "openap/thrust.py:Thrust.__init__", "openap/drag.py:Drag.__init__", "openap/fuel.py:FuelFlow.__init__", "openap/emission.py:Emission.__init__"]}
{"id": "C143", "title": "Climb thrust at the end of the default climb", "statement": "For an offered aircraft type with its default engine, standard atmosphere: at the mean cruise altitude, climb Mach number and climb rate at constant Mach of its WRAP table (where the default generated climb ends), climb thrust exceeds clean drag plus the weight component along the path at every mass up to MTOW. (Fails: true only for gl5t, glf5, glf6, lj45 and pc24. For a359, b773, b788, c25a, c525, c550, c56x and md11 the thrust is too small at every mass from the empty weight on. For every other code there is a mass strictly between empty weight and MTOW up to which, and only up to which, the climb can be kept up.)", "quantifier": "all offered type codes, all masses", "why_tests_cant": "Each test of the thrust, drag and kinematic models looks at one model; whether the trajectories of one can be flown with the forces of the others, at every mass and for every type, is not tested.", "anchors": ["openap/thrust.py:Thrust.climb", "openap/drag.py:Drag.clean", "openap/kinematic.py:WRAP.climb_vs_conmach", "openap/kinematic.py:WRAP.cruise_alt", "openap/gen.py:FlightGenerator.climb"]}
{"id": "C144", "title": "Phase labels of a generated complete flight", "statement": "For every offered type code, any seed, random or not, without noise and with the default cruise Mach number and altitude, the rows of FlightGenerator.complete() are, in this order: rows at altitude 0 with vertical rate 0, rows climbing at more than 300 ft/min, rows at 29500 ft or more and 410 kt or more with vertical rate 0, rows descending at more than 300 ft/min, and rows at altitude 0 with vertical rate 0; only the last part may be empty. Fed to FlightPhase with windows of any length, every window except the last that lies in one part is labelled as that part: CL, CR, DE; on the runway GND if all its speeds are below 100 kt, LVL if all are from 100 to 300 kt. The number of labels is the number of rows.", "quantifier": "all offered type codes, all random streams, all time steps up to 300 s, climb CAS of 190 kt or more and descent CAS up to 330 kt or their defaults, all window lengths", "why_tests_cant": "The generator and the labeller are tested apart, on one aircraft and one recorded flight; that the labeller recognises what the generator produces for every type, draw and window length is not tested.", "anchors": ["openap/gen.py:FlightGenerator.complete", "openap/phase.py:FlightPhase.set_trajectory", "openap/phase.py:FlightPhase.phaselabel"]}
{"id": "C145", "title": "Fuel flow along a generated flight", "statement": "(Fails as a user would expect: the fuel of a generated flight is not a number.) For every offered type code and every complete flight generated with the default speeds, Mach numbers and altitude (any cruise range, any time step up to 10 s), feed the columns groundspeed, altitude and vertical_rate to FuelFlow.enroute in double precision, with a mass from the operating empty to the maximum take-off mass. Every row at 5 kt or less gives NaN; the first row is such a row, so the sum of the column is NaN. Every row at 25 kt or more gives the exact finite value of the formula, and every row that is not on the runway with vertical rate 0 is at 117 kt or more.", "quantifier": "all offered type codes, all masses from OEW to MTOW, all random streams, all cruise ranges, all time steps up to 10 s", "why_tests_cant": "The generator and the fuel model are tested apart; the fuel model is tested at cruise speed only, never on the runway rows that every generated flight begins with.", "anchors": ["openap/gen.py:FlightGenerator.complete", "openap/fuel.py:FuelFlow.enroute", "openap/fuel.py:FuelFlow.at_thrust"]}
{"id": "C146", "title": "Lists returned by the listing functions are shared", "statement": "(Fails as a user would expect: a caller can spoil them for everybody.) available_aircraft, aircraft_engine_options and search_engine raise exactly when the data say so and return the list the data say, unless that list was changed by a caller before. A list changed by a caller is handed out, changed, to every later caller who writes the call the same way, as long as fewer than 128 different other calls of that function come in between; for available_aircraft with no argument or a boolean this lasts for the rest of the process. Calls of different functions, or written differently (no argument, False, use_synonym=False; True and 1), never share a list, while use_synonym=True and use_synonym=1 do.", "quantifier": "all histories of calls and changes to the returned lists, all string, integer and boolean arguments, positional or by name", "why_tests_cant": "Tests call each function once per process; sharing depends on the history of calls by other code and on how the call is written.", "anchors": ["openap/prop.py:available_aircraft", "openap/prop.py:aircraft_engine_options", "openap/prop.py:search_engine"]}
{"id": "C147", "title": "The time step of a generated climb or descent is only a resolution", "statement": "Without noise, the times at which a generated climb passes its altitudes follow a table that does not depend on dt: take-off speed over take-off acceleration, plus the integral of dh over the climb rate of the WRAP schedule. For every offered type code, every row off the ground up to the first level one is within 11 dt of that table (20 dt with random rates), and the first level row is within 14 dt (26 dt) of the time of the level-off altitude. For a descent the table is 60 s of level flight (unless withcr=False) plus the integral down to the altitude, and rows up to the first one on the ground are within 13 dt (33 dt).", "quantifier": "all offered type codes, all positive time steps, all generator states, climbs at Mach 0.35 and 190 kt or more or at default speeds, descents with sensible arguments, random or not", "why_tests_cant": "Tests run one or two time steps; that every time step gives the same flight up to a fixed number of steps needs a bound on the accumulated error of each loop.", "anchors": ["openap/gen.py:FlightGenerator.climb", "openap/gen.py:FlightGenerator.descent"]}
{"id": "C148", "title": "A type code is a path pattern: which files on disk it reads", "statement": "(Fails: a type code names an aircraft of the package, wherever the package is installed.) prop.aircraft(ac) globs the data directory joined with ac.lower() + '.yml'. Without slashes in the code, and in a directory whose path has no wildcard characters, it reads the files of that directory only, as if they were a table; the same holds for the files opened by Drag and WRAP. With '../' in front, every file on the disk whose path is in lower case, without wildcards and ends in '.yml' is read by some type code; no other ending is ever read. Drag reads nothing but '.yml' files either, WRAP nothing but '.txt' files. If a directory above the package has a name with brackets, such as 'env[1]', and nothing is called 'env1', then available_aircraft() is empty, every aircraft() raises although the files are there, and Drag and WRAP find their files through synonyms only.", "quantifier": "all disks, installation directories, type codes, synonym tables and values of use_synonym", "why_tests_cant": "Tests run from one installation directory and with well-formed codes; which files can be read at all is a statement about every code and every disk.", "anchors": ["openap/prop.py:aircraft", "openap/prop.py:available_aircraft", "openap/drag.py:Drag.load_drag_model", "openap/kinematic.py:WRAP.__init__"]}
{"id": "C149", "title": "The distance of a generated climb or descent does not depend on the time step", "statement": "At each altitude a generated climb (without noise) has the speed and the distance of the aircraft flown continuously, up to an error proportional to dt: the ground run is v^2/(2a), then the aircraft gains at most 0.5 m/s per second without exceeding the climb CAS, holds the CAS between its altitude and the crossover, then the Mach number; the distance is the integral of speed over vertical rate. This holds for every row up to the first level one; from there on the distance is exactly speed times time, and the rows end after 60 s up to one time step. Rows of the ground run have s = v^2/(2a) - v*dt/2. Likewise for a descent down to its first landing row: it holds Mach and CAS exactly, then loses at most 0.2 m/s per second without getting slower than the approach CAS, and flies the approach speed below 1000 ft. From the first landing row on time and distance are exactly those of a braking at the landing deceleration plus dt/2 times the change of speed, and the last row has at most the speed lost in one step. For all shipped types and admissible arguments, random or not, the profiles and the factor of dt (for dt up to 60 s) do not depend on dt, and the distance is strictly monotone in altitude.", "quantifier": "all parameters with the stated signs, time steps, and rows; all shipped type codes and keyword arguments in the stated ranges, random or not", "why_tests_cant": "A test compares two time steps for one aircraft; that distances converge, to what and how fast, is about all time steps.", "anchors": ["openap/gen.py:FlightGenerator.climb", "openap/gen.py:FlightGenerator.descent"]}
{"id": "C150", "title": "Generated flights end in double precision, except with time steps that are too small", "statement": "In IEEE double precision, with ordinary parameters (dt from a millisecond to a minute, rates of 0.1 to 100 m/s, accelerations of 0.1 to 10 m/s2, altitudes up to 15 km, CAS of 30 to 400 m/s, Mach numbers of 0.1 to 2, a take-off speed below those speeds, a cruise of up to 10000 km), the loops of climb, descent and cruise end. Time increases strictly along the rows. In a climb neither altitude nor distance ever falls, and the last row is level, not below the cruise altitude and less than 1.01 steps above the highest of the altitudes that end its phases. In a descent the altitude never rises and stays between 0 and the cruise altitude; the last row is on the ground or at most 1.01 steps above it, and stops within 1.01 steps of braking. A cruise stays within the requested distance and ends less than 1.01 steps short of it. With a whole number k of seconds as dt the i-th time stamp is exactly i*k while i*k < 2^53; with other dt it is off by at most i^2/2^53 steps. The default flights of every shipped type with dt from 2 ms to 59 s have ordinary parameters also when the setup is computed in double precision from a table read with errors of up to 4 units in the last place (even after errors of one per cent in each parameter), so they end. (Fails for tiny steps: if one step adds at most 2^-49 m/s to the speed and take-off needs more than 32 m/s, the climb never ends, although it does in exact arithmetic.)", "quantifier": "all machines with correctly rounded basic operations and a library within the stated error, all parameters in the stated ranges, all rows", "why_tests_cant": "Tests run a few flights with a few steps; whether rounding can keep a loop from ending, or make time or altitude go backwards, is about all parameters and all numbers of passes.", "anchors": ["openap/gen.py:FlightGenerator.climb", "openap/gen.py:FlightGenerator.descent", "openap/gen.py:FlightGenerator.cruise"]}
