# Formal model of openap: design

Source: `/repo` (junzis/openap at the pinned commit), read as text only. Everything below is about that
text. Line numbers in comments refer to files under `/repo`.

## 1. What is modelled and how

The numeric code of openap is written against a *backend* object `b` (`b.sqrt`, `b.exp`, `b.maximum`, ...).
The Lean model keeps that structure:

* `Verif/Prelude/Backend.lean` - `Backend α`, a record of the operations the code calls on `b`.
* `Verif/Model/*.lean` - one Lean function per Python function, polymorphic in the carrier `α` and the
  backend, mirroring the Python expression term by term. Each definition cites file and lines.
* Instances: `np` (NumPy), `jax`, `casadi` over `ℝ`; `npArr ι` over `ι → ℝ` (arrays); `npNR`,
  `casadiNR` over `NR` (a real or `nan`, with domain checks); `jaxDual` over `Dual` (value and tangent).
* Discrete code (table lookup, loops, filters, labels, caches, argument binding) is modelled as
  ordinary Lean functions; exceptions are values (`Except`), loops are recursions with fuel whose
  independence from fuel is proved where termination is claimed.
* Shipped data (`openap/data`) is transcribed by `tools/gen_data.py` into `Verif/Data/*.lean` as exact
  decimal rationals, and claims about it are proved over the complete table.
* `Verif/Spec/*.lean` - independent specifications. They do not import the model, except `Spec/Gen.lean`,
  which refers to the model's parameter records and result types to say which arguments are sensible,
  `Spec/GenParams.lean`, which refers to the same records, `Spec/Listing.lean`, which uses the call forms and operations of `Model/Listing.lean`, and
  `Spec/Bada4File.lean`, which uses the type
  of XML elements.
* `Verif/Props/*.lean` - the property theorems named in `MANIFEST.json`, with `example`s showing their
  hypotheses are met by concrete non-trivial values. `Verif/Lemmas/*.lean` - supporting mathematics.

## 2. Trusted base

1. Lean 4.33.0's kernel and Mathlib's definitions of `Real.exp`, `Real.log`, `Real.rpow`, `Real.sqrt`,
   trigonometric functions and `Complex.arg`. Axioms: only `propext`, `Classical.choice`, `Quot.sound`
   (checked with `#print axioms`). No `sorry`, no own axioms, no `native_decide`/`bv_decide`.
2. *Floating point.* All properties except C121, C128, C131 (integers that wrap around), C132 and C150 are about exact real arithmetic; C121 bounds the distance
   between that and rounded arithmetic for the functions it names. For C121 and C150 the base is: literals,
   `+ - * /` and `sqrt` round to a nearest representable number, library functions (`exp`, `log`, `power`,
   trigonometry, integer powers) are within 4 units in the last place and keep zero and the sign,
   comparisons and `max`/`min`/`clip` are exact (`Prelude/Float.lean`). JAX without x64 keeps constant
   subexpressions in double precision; the single-precision machine rounds them too. C128 and C132 use
   IEEE infinities and NaN with overflow at a threshold and exact arithmetic below it
   (`Prelude/Overflow.lean`). Underflow and signed zero are not modelled. Elsewhere NaN is modelled only
   by the `NR` carrier.
3. The transcription of Python text to Lean (every definition cites its lines) and the data generator.
4. Library behaviour: NumPy/JAX/CasADi primitives, pandas `query`/`iloc`, `scipy`, `yaml` parsing are
   represented by the functions described in the model comments. For C118 this includes JAX's
   forward differentiation rules (`Prelude/Dual.lean`), for C123 the partial derivatives that JAX and CasADi
   attach to their primitives and the way back through the code (`Prelude/Gradient.lean`). For C122
   the simplifications that CasADi and XLA make on expression graphs are assumed to keep values.
   For C129 NumPy's broadcasting rule, `squeeze`, `item` and the truth value of arrays are as described in
   `Prelude/Shaped.lean` and `Model/Decorated.lean`. For C131 the result types, wrap-around and exceptions of
   integer arrays are those of NumPy 2 as described in `Prelude/Ints.lean`; Python integers become
   `int64` (Linux, macOS, and Windows since NumPy 2).
   For C132 the derivative rules are those of `Prelude/Tape.lean`, with the order of operations of `jax.lax` and
   CasADi for quotients and logarithms; constants carry no tangent.

## 3. Plan per property

| Property | Model | Proof method |
|---|---|---|
| C01-C04 | `Model/Aero.lean` `atmos` | positivity, `rpow`/`exp` monotonicity, case split at the kink, `HasDerivAt` |
| C05, C06 | `hIsa` | explicit log/rpow bounds; witness for the failing direction |
| C07-C10 | airspeed functions | algebra of `rpow`; monotone composition; convexity for C09 and for the true airspeed of C10 |
| C11, C12 | `crossoverAlt` | monotone composition, exponent comparison |
| C13-C17 | `Model/Geo.lean` | embedding in `ℝ³` (spec: angle between unit vectors), `InnerProductGeometry.angle` triangle inequality; `Complex.arg` |
| C18 | `solarZenith` | against `Spec/Solar` (Spencer's series); Cauchy-Schwarz, periodicity |
| C19-C22 | backends | equality of backend records, `rfl` for arrays, NaN carrier |
| C23 | `Model/Ndarray.lean` | shape-level model of the decorator |
| C24-C27 | `Model/Drag.lean` | AM-GM, monotonicity |
| C28-C33 | `Model/Fuel.lean` | exp/log inequalities, softplus slope bound, witnesses |
| C34-C36, C108 | `Model/Thrust.lean` | polynomial inequalities, continuity |
| C37, C84 | `Data/*.lean`, `Model/Tables.lean`, `Model/Construct.lean`, `Model/Kinematic.lean` | kernel evaluation over the complete shipped tables (`decide +kernel`) lifted to theorems over all codes |
| C38-C40 | `Model/Emission.lean` | linearity, interpolation bounds |
| C41, C42 | `Model/Mass.lean` | clip monotonicity, table evaluation |
| C43-C48 | `Model/Contrail.lean` | algebra, derivative signs; crossing of the saturation curves (C44) by interval evaluation of the exponents at two points and monotone difference between |
| C49-C57, C86-C90, C104, C114 | `Model/Gen.lean` | loop invariants, ranking functions; C104 compares the runs with and without noise; C114 against `Spec/GenParams` |
| C58-C63, C91, C113 | `Model/Phase.lean` | list invariants, argmax characterisation of `defuzz`; C113 against `Spec/PhaseIndices` |
| C64, C92, C93 | `Model/Fuzzy.lean` | algebra, list induction; NaN carrier for equal feet |
| C65, C66 | `Model/Filters.lean` `sortxy`, `simplefill` | stability of merge sort, list induction |
| C67, C68, C94 | `Model/Filters.lean` `savgol` | Vandermonde matrix is injective, pseudo-inverse is the (unique) Penrose inverse, Taylor coefficients, normal equations |
| C69, C95 | `Model/Filters.lean` `twf` over `NR` | strong induction on the sample index; witness family for unboundedness |
| C96 | `Model/Filters.lean` `splineKernel`, `splineFilter` (fit an arbitrary function) | convex combinations |
| C70-C73, C82, C83 | `Model/Registry.lean`, `Model/Cache.lean` | list/string lemmas, state machine with a heap for aliasing |
| C102, C103 | `Model/Construct.lean`, `Model/Registry.lean` | first-match lemmas for any database; kernel evaluation over the shipped synonyms |
| C74, C75, C97, C98 | `Model/Nav.lean` | argmin lemmas, spherical geometry (distance to a box edge), state machine for the module-level cache, witnesses |
| C75, C99 | `Data/Airports.lean`, `Model/Airports.lean` | kernel evaluation over all 13795 rows (sortedness, value ranges), lifted to all codes |
| C76, C100 | `Model/Statistics.lean`, SciPy an arbitrary record of functions | percentile bounds from merge sort, loop induction |
| C77, C78 | `Model/Bada3.lean` | attribute-lookup model (`sci` optional), algebra |
| C79 | `Model/Bada3Merge.lean` | induction over nested dictionaries and paths |
| C105-C107 | `Model/Regex.lean` (ordered backtracking semantics), `Model/Bada3Parse.lean` | first alternative of each pattern by induction; the specification cuts texts into pieces and has no regular expressions |
| C101, C109-C112 | `Model/Bada4.lean` (with and without `sci`), `Model/Arrays.lean` (1-D/2-D broadcasting, `einsum`) | case analysis; shape invariants for columns, rows and tables; induction over XML trees |
| C115 | `Model/Aero`, `Geo`, `Drag`, `Thrust`, `Fuel`, `Emission` | composition of continuous functions on products, gluing at kinks; witness at rest |
| C116 | `Model/EngineRecord.lean` | rounding lemmas; kernel evaluation over all 426 engine rows |
| C118 | `Prelude/Dual.lean` (value and tangent, JAX's rule for each primitive), same `Model/*` functions | chain rule in Fréchet form, one lemma per primitive, composed along the code; `Spec/Autodiff` |
| C119 | `Model/Geo` | composes the sphere theorems of C13, C14, C16 and C17 with one inner-product identity for two points of a track |
| C120 | `Model/Drag`, `Model/Fuel`; `Spec/MinDrag` | `a q + b / q` falls up to and rises beyond `sqrt (b / a)`; fuel flow strictly increases with thrust |
| C121 | `Prelude/Float.lean` (formats, machines, carrier `Fl`), `Model/FloatRecords`; `Spec/Rounding` | error calculus in `Lemmas/Float` (relative errors as `exp (±n u)`, absolute errors), applied term by term to the same definitions the other properties are about; for NOx, CO and HC the error of each segment of the interpolation plus a Lipschitz bound of the exact table, so that a rounded fuel flow may fall in a neighbouring segment (`Lemmas/FloatEmission`); for the crossover altitude (`Lemmas/FloatCrossover`) relative errors of the two impact pressures, then an absolute error, as the altitude may vanish, and likewise for the pressure altitude (`Lemmas/FloatPressureAlt`); for far distances (`Lemmas/FloatDistance`) the error of the haversine is bounded by its root times u plus u², then the slope of the inverse sine |
| C122 | `Prelude/Graph.lean` (expression graphs, the backend that builds them, evaluation), `Model/DataRecords`; `Spec/Graph` | the code is polymorphic in the kind of number, so building and then evaluating is the direct call by definition; symbols and tables by induction over graphs (`Lemmas/Graph`) |
| C123 | `Prelude/Gradient.lean` (value with a tangent or with the map that hands cotangents back; rules of JAX and CasADi), `Model/DataRecords`; `Spec/Gradient` | laws of differentiation as a class (`Lemmas/Calc`), proved for the four modes (`Lemmas/AutodiffJax`, `Lemmas/Gradient`), composed once along the code (`Lemmas/Autodiff*`) for C118 and C123 |
| C124 | `Model/Binding.lean` (Python argument binding, the constructors as far as they pass arguments on, subclasses with a fixed backend); `Spec/Binding` (value given for a parameter, legal call) | each constructor equals binding followed by a function of the bound values and the keywords it reads (`Lemmas/BindingCore`); binding read off by cases on the positional arguments (`Lemmas/Binding`) |
| C125 | `Model/GenKeywords.lean` (keyword dictionaries, `complete` passing them on) | `complete` on dictionaries refines `complete` on the record of documented keywords; the setups depend on the listed fields only; the documented call by C55 |
| C126 | `Model/Phase.lean` | the label of a window is a function of its three means (`label_of_means`); means are invariant under bijections of the samples; windows of a prefix below its last are complete |
| C127 | `Model/Drag.lean`, `Model/Fuel.lean` | dynamic pressure is a function of the equivalent airspeed; scaling of the closed form of C22; C28, C29 and C120 for fuel per distance; compactness for the best speed in a range |
| C128 | `Prelude/Overflow.lean` (infinities, NaN, overflow at a threshold; exact below), `Model/Fuel.lean` | the operations of atmosphere, drag and required thrust bounded one by one (`Lemmas/Overflow`); the limiter by cases on which exponential overflows (`Lemmas/OverflowFuel`); shipped data by kernel evaluation of one inequality per type |
| C129 | `Prelude/Shaped.lean` (numbers and arrays with shapes, broadcasting, exceptions), `Model/Decorated.lean` (the decorator at every call, also nested ones) | a relation between a value and the function it represents on the indices of the common shape, kept by every operation of the backend, hence by every body, and by the decorator (`Lemmas/Shaped*`); columns by the same relation over three shapes: vector, column and matrix |
| C130 | as C129, JAX functions | the same relation with the exact kind and shape of every value (`Lemmas/JaxShapes`); the level of each method as a function of the kinds of its arguments, evaluated over all kinds of scalars, bounded algebraically for arrays |
| C131 | `Prelude/Ints.lean` (integers with a type, promotion, wrap-around, `OverflowError`), the models of drag, thrust, fuel and emissions | a relation between a calculation on typed integers and the exact one, kept by every operation that involves a double (`Lemmas/Ints*`); the few operations on integers alone by hand |
| C132 | `Prelude/Tape.lean` (values that overflow, each with the linear steps of its derivative, evaluated forward or back; JAX's and CasADi's rules), the model of fuel flow | NaN: the step through the overflowed exponential is inf/inf forward and 0·inf back, and every other step keeps NaN (`Lemmas/Tape`, `Lemmas/TapeFlight`); exactness: every step stays below the threshold and the product is the derivative (`Lemmas/TapeExact`); shipped aircraft as C128 |
| C133 | the decorated methods over `Nd` (C129, C130) | every operation's result has the lengths of its operands or raises (`Lemmas/Lengths`), composed per method (`Lemmas/LengthsPerf`); `Spec/Lengths` says when lengths clash |
| C134 | `Model/Contrail.lean`: `relativeHumidity` | algebra, against two ideal gases mixed (`Spec/MoistAir`) |
| C135 | `Model/Contrail.lean`: saturation pressures, thresholds | the saturation curve is convex and the fit is close to the exact threshold: interval arithmetic with proved enclosures (`Lemmas/Interval`, end points n/10^18, kernel evaluation with `decide +kernel`), cells covering the whole range (`Lemmas/ApplemanCurve`, `Lemmas/ApplemanFit`); tangents of convex functions, against `Spec/Appleman` |
| C136 | `Model/Gen.lean`: `climb`, `descent`, `cruise`, `complete`; shipped WRAP and aircraft files | invariants of the two loops: below the crossover altitude constant CAS bounds Mach, above it constant Mach bounds CAS, between them the aircraft slows or its density ratio grows by less than the tolerance in one step (`Lemmas/Envelope`, `Lemmas/EnvelopeRows`); crossover altitudes of the shipped schedules enclosed by interval arithmetic, limits compared by kernel evaluation (`Lemmas/EnvelopeShipped`); `complete` by its three parts, against `Spec/Envelope` |
| C137 | `Model/Phase.lean`: `phaselabel`; `Model/Gen.lean`: `cruise`; shipped WRAP files | from C59 by bounds on the interpolated bell and step curves over the regions (`Lemmas/PhaseRegions`): outside ±300 ft/min every other phase is weaker than a bell at three widths, level phases compare as the larger of two distances; means inherit one-sided bounds of the samples; cruise Mach and altitude of the shipped tables by kernel evaluation |
| C138 | `Model/Thrust.lean`: `cruise`; `Model/Drag.lean`: `clean`; shipped aircraft, engine and polar files | at the cruise point both reduce to closed forms (`Lemmas/Feasible`: `thrust_at`, `drag_at`); the sign of thrust minus drag at OEW, MLW or MTOW by kernel-evaluated interval arithmetic for each shipped record, all other masses by monotonicity of the drag in the mass |
| C139 | `Model/Thrust.lean`: `takeoff`, `descentIdle`; `Model/Drag.lean`: `clean`; shipped files | `Lemmas/Idle`: the Mach terms of the take-off thrust never add up to a gain below Mach 1.26 (concavity bound of the square root, polynomial inequalities in the pressure ratio up to 1.053); least drag from C24; the shipped records compared as squared whole numbers by kernel evaluation |
| C140 | `Model/Mass.lean`: `fromRange`; `Model/Fuel.lean`: `enroute`; shipped files | closed form of the cruise drag (`Lemmas/Feasible`) put through enclosures of the limiter and the fuel curve (`Lemmas/RangeFuel`); sign of burn minus fuel at OEW or MTOW by kernel-evaluated interval arithmetic per shipped record; both sides are proportional to the distance, other masses by monotonicity |
| C141 | `Model/Emission.lean`: `nox`, `co`, `hc`; shipped engine table | the index is the piecewise-linear databank curve at `c·w` times a positive constant of the flight condition; monotonicity of such a curve from the order of its four points, and back from the curve to the points; order of the points per shipped engine by kernel evaluation |
| C142 | `Model/Objects.lean`: heap of engine, aircraft and polar records, LRU cache of `prop.engine`, constructors as state-changing calls, programs as lists of operations | invariant by induction over programs (sound cache, disjoint aircraft and polar records); simulation of every constructor by the stateless one in `Model/Construct.lean` while no record is changed; an entry of the cache stays while fewer than 128 other keys are asked for |
| C143 | `Model/Thrust.lean`, `Model/Drag.lean`, `Model/Kinematic.lean`, `Model/Construct.lean` on the shipped files | closed forms of thrust available and needed at the WRAP end of climb, enclosed per type by `Lemmas/Interval.lean` (`decide +kernel`); strictly increasing and continuous in the mass, hence a limiting mass by the intermediate value theorem |
| C144 | `Model/Gen.lean`: `complete`; `Model/Phase.lean`: `set_trajectory`, `phaselabel`; shipped WRAP files | invariants of the climb and descent loops tie each segment name to its altitude and rate; segment order (C87) splits the rows; rates of every table at least 1.6 m/s by kernel evaluation; parts joined as in C56; labels by C137 |
| C145 | `Model/Gen.lean`: `complete`; `Model/Fuel.lean`: `enroute` over `XR`; shipped WRAP, aircraft, engine, polar files | row bounds carried through the climb and descent loops (`Lemmas/GenRows`); required thrust between two dynamic pressures; per-type inequalities by kernel evaluation; C128 |
| C146 | `Model/Listing.lean`: the three `lru_cache` functions, call keys, a heap of lists | invariant over all histories ties cache entries to the data and to one key each; a held entry moves back by at most one place per different other call (as C72); order of `available_aircraft` is the directory order of the data (`sorted` omitted) |
| C147 | `Model/Gen.lean`; `Spec/GenTime.lean`: rates as functions of altitude, passage time as an integral | one pass of the loop is exact where the rate is constant and off by at most max/min rate steps where a threshold is passed; each of the three (four) thresholds is passed once; induction over the rows; rate ratios of the shipped tables by kernel evaluation |
| C148 | `Model/Files.lean`: disk, path walking with `.` and `..`, `glob.glob` component by component, `open`; `Spec/Files.lean`: installation directory, its files as a table | refinement to `Model/Registry.lean` and `Model/Construct.lean` for codes without slashes; a name fits a pattern with a plain ending iff it has the ending and the rest fits (induction over patterns); walking up and down a path |
| C149 | loops of `Model/Gen.lean`; `Spec/GenDistance.lean`: highest admissible speed profile, speed schedules, distance as an integral | loop invariant with a potential: a step inside a segment errs by the change of a monotone speed, which telescopes, a step across a segment boundary by a fixed number of steps; the accelerating speed stays within a multiple of `dt` of an infimum over all earlier altitudes, the decelerating one of a supremum; differentiability of the CAS conversion at the start of the deceleration is taken from C118 |
| C150 | `Model/GenFloat.lean`: the three loops of gen.py over any arithmetic, at the reals equal to those of `Model/Gen.lean` (`climbPass_np`, `descentPass_np`, `cruisePass_np`); run on `flt M` for binary64; `Model/GenFloatSetup.lean`: the setups with `random` false likewise (`climbParams_np`, `descentParams_np`, `cruiseParams_np`) | loop invariants per phase with a lexicographic measure; one rounded step is within 1 % of the exact one; sums that must not run away stall at a power of two (`rnd_stall`); errors of repeated addition by induction; for the default flights the rounded parameters are within 1 % of the exact ones (`Lemmas/GenFloatSetup`, with the crossover altitude of C121) |
| C117 | `Model/Olr.lean` | induction over sorted nodes and over the dimensions, against `Spec/Olr` |

Where the code does not do what its documentation (or a user) would expect, the statement in
`properties.jsonl` is the true characterisation, says what is documented, and the Lean side proves both
the negation of the expectation (with a witness, or for all inputs) and the positive part. A theorem that
is weaker than its English statement is named `_partial`.

Not expressible: plotting functions, network access, file system layout beyond the
file names shipped, SciPy spline and distribution fitting internals (`Spline.filter`, `fit`'s `kstest`).
