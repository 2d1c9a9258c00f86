# Formal model of ADRpy: design

Subject: `sobester/ADRpy` at the pinned commit, source in `/repo` (Python). The model is Lean 4 with
single Mathlib modules, in `lean/Verif/`. The properties are in `properties.jsonl` (C01 ...), the
theorem names per property in `MANIFEST.json`, and the attempts to break the theorems in
`seeded/LOG.jsonl`.

## Trusted base

* Lean's kernel. Every theorem depends on at most the three standard axioms `propext`,
  `Classical.choice`, `Quot.sound` (checked with `#print axioms`, see "Axioms" below). No own axioms,
  no `sorry`, no `native_decide`, no `bv_decide`.
* The correspondence between model and Python code, which was made by reading. Each definition cites
  file and lines. The code was never run.
* The copies of data files of the package: the MIL HDBK 310 tables, the turboprop table, the polynomials named in the
  theorems, (by `tools/runways.py`) the airport column and the missing entries of the runway file, and (by `tools/engines.py`) all engine
  tables and polynomials, with the decimals of the files as exact rationals.

### Modelling decisions that apply everywhere

* **Numbers.** Python floats and numpy floats are modelled by exact real numbers; decimal literals by
  the exact rational they denote. Rounding is modelled in the `*Float.lean` modules only (C127 on): each operation is followed by
  a rounding function, the C library's `pow`, `exp`, `log1p`, `tan`, `cos` are within one unit in the last place, numpy's `cos` and `sin` within four, and nothing overflows or underflows.
  `Model/Ieee.lean` (C142) adds the bounds of the exponent (infinity, subnormal numbers) for the constraint and CS-23 formulas;
  elsewhere overflow is not modelled, and signed zeros nowhere.
  `**`, `exp`, `log`, `sqrt`, trigonometry are Mathlib's real functions; a negative base of a
  fractional power (numpy: nan) or a negative square root (`math`: ValueError, numpy: nan) is either
  excluded by a stated hypothesis or modelled as an explicit error/NaN.
* **Division by zero.** Lean's `x / 0 = 0` is never relied on: theorems carry the hypotheses that make
  the divisors nonzero, or the model returns an error value. For the closed formulas this is itself proved:
  Model/Checked.lean writes them in an arithmetic where undefined operations have no value, and C135 relates the two.
* **NaN** where the code produces it on purpose is an explicit value (`none` of `Option ℝ`).
* **Exceptions** are values: `Except PyErr α` with one constructor per Python exception class that
  occurs. Warnings and prints are not modelled except where a property is about them (`Model/Warnings.lean` and the like for C146 to C149).
* **Arrays** are `List ℝ`. The scalar/one-element-array juggling (`recastasnpfloatarray`,
  `_reverttoscalar`, `len(x) == 1`) is modelled where a property depends on it.
* **Dictionaries** are association lists with `lookup`/`insert` in insertion order; the flag value
  `False` ("not specified") is a constructor of the value type, distinct from the number 0, because the
  code tests with `is False`.
* **Object identity/mutation.** A constructor that mutates a dictionary given by the caller is modelled
  as a function that also returns the dictionary as it is afterwards. Model/Shared.lean adds the identity of dictionaries
  (addresses in a memory) and programs of several steps on it, for C137.
* **External numerics** (scipy `griddata`, `interp1d(kind='cubic')`, `RectBivariateSpline`, the METAR
  parser) are arbitrary function parameters of the model, so theorems hold for any behaviour of them;
  `interp1d` linear and `np.interp` are modelled from their documentation. For C120 alone the
  bivariate spline is assumed to pass through its nodes and to clamp its arguments to the table (FITPACK `bispev`);
  this is an explicit hypothesis of the theorems, met by a concrete surface.
* Plotting is modelled up to the numbers, labels and limits handed to matplotlib, where a property is about
  them; what matplotlib does with them is not.

## Layout

* `Verif/Model/*.lean`: the model, one file per Python module or part of one.
* `Verif/Spec/*.lean`: small independent specifications (for example "inverse pair", "set of digits",
  piecewise interpolation relation), written without the model's helpers.
* `Verif/Lemmas/*.lean`: auxiliary facts (numeric bounds on exp/log/powers, list lemmas).
* `Verif/Props/*.lean`: the property theorems, named `Cnn_...`; beside each an `example` that shows a
  concrete case meeting its hypotheses. Suffix `_partial`: only part of the property; suffix
  `_violated`: the code contradicts the (documented) property, proved with a witness or in general.

## Plan per property

| id | what is modelled | how proved |
|----|------------------|------------|
| C01 | all conversion functions of unitconversions.py | field arithmetic for each pair, both directions, against an "inverse pair" spec |
| C02 | temperature functions | affine arithmetic, strict monotonicity |
| C03 | mps2kts, kts2mps, iterated round trip | closed form by induction on n, Bernoulli inequality; exact inverse refuted |
| C04 | direct and indirect routes | exact ratio, bound; exactness refuted |
| C05 | tas2eas, eas2tas of unitconversions | sqrt algebra, order |
| C06 | ideal gas helpers | field arithmetic |
| C07 | geom2geop45m, geop2geom45m | field arithmetic, order of Moebius maps |
| C08 | reciprocalhdg | case split |
| C09 | Runway.windcomponents on lists and scalars | trigonometric identities, lists by induction/zipWith |
| C10 | Runway.__init__ over an arbitrary table of rows | index arithmetic under contiguity; negative runway number gives another airport (violation witness) |
| C11 | _isatemp_k | case split over layers; Lipschitz bound through layer joins |
| C12 | _isapress_pa | monotonicity of powers/exp per layer, numeric bounds at the boundaries, up-jumps at 20 and 47 km proved |
| C13 | _isadens_kgpm3 | as C12; offset law by algebra |
| C14 | p, rho, T together | derivative sign of the log ratio per layer or direct bounds plus numeric end values |
| C15 | _isapressalt_m | inverse of power/exp per layer; failing bands proved |
| C16 | _isadensalt_m including its use of the whole array | as C15; array error by case analysis |
| C17 | _alttest | decision logic; limiting refuted |
| C18 | Atmosphere.mach | the guard never fires; refuted for negative speeds; magnitude law |
| C19 | eas2tas, tas2eas, dynamicpressure_pa for an arbitrary atmosphere, and ISA | sqrt algebra; ISA density below sea level density from C13 |
| C20 | mpseas2mpscas | polynomial sign |
| C21 | tempratio, pressratio, tatbysat | rpow monotonicity |
| C22 | turbofanthrustfactor | limit value at break, order |
| C23 | turbojetthrustfactor, turbopropthrustfactor_matt | break agreement; unboundedness with explicit Mach number |
| C24 | pistonpowerfactor | arithmetic |
| C25 | Obsprofile, linear interp1d with its sorting of the table | induction over the table; a sorted permutation is unique |
| C26 | interpolation of p, rho, T on one interval | bilinear identity |
| C27 | the 12 data files as Lean data, mil_hdbk_310's column choice | kernel computation over the complete tables lifted to all queries via C25; violations stated |
| C28 | polyblend | polynomial inequalities |
| C29 | _coordtrans | trigonometric identities, lists |
| C30 | fdrplot row filter | list filter facts |
| C31 | readmethistfile | list/char facts |
| C32 | constructor filling loop over dictionaries | induction over the default list |
| C33 | constructor twice | fixpoint argument; the propulsion attribute exception (None becomes a tuple) recorded |
| C34 | constructor's effect on caller dictionaries | refuted by witness; general description of the change proved |
| C35 | averaging loop, deepcopy before it | induction, list average bounds |
| C36 | sweep and taper defaults incl. list values | case analysis; documented weighting refuted |
| C37 | etaprop defaults | induction |
| C38 | propulsion parsing, _propulsion_slcorr dispatch | decision logic |
| C39 | digit list of an int, selection | digits of a natural number, set extensionality |
| C40 | oswaldspaneff2/4, induceddragfact | sqrt inequalities |
| C41 | findchordsweep_rad | arithmetic |
| C42 | twrequired_crs with abstract induced drag factor | AM-GM with uniqueness, monotonicity |
| C43 | twrequired_clm, twrequired_sec | algebra |
| C44 | the three constraints with weight fractions | algebra |
| C45 | thrusttoweight_sustainedturn, twrequired_trn | refuted by dependence on climb fraction; special case proved |
| C46 | feasibility loop | list induction, order |
| C47 | np.amax with NaN | list of Option, order |
| C48 | guards | decision logic over flags |
| C49 | thrusttoweight_takeoff, map2static | order |
| C50 | powerrequired chain | field arithmetic |
| C51 | pcorr of generic types | dispatch; refuted |
| C52 | vstall_kias, wsmaxcleanstall_pa, smincleanstall_m2 | sqrt algebra with the knots drift constant |
| C53 | _wig | order |
| C54 | OFAT loop, recording condition, normalisation, propulsion re-parsing | list sums; two refutations |
| C55 | _paragraph337 | order; refuted for utility/aerobatic |
| C56 | _paragraph333 gusts with np.interp | piecewise linear order |
| C57 | _paragraph341 | order |
| C58 | _paragraph335 and the max rules of flightenvelope | order, case analysis |
| C59 | corner points | quadratic root, sqrt algebra |
| C60 | sampled boundaries (linspace) | list facts, min/max |
| C61 | CertificationSpecifications.__init__ | decision logic; refuted |
| C62 | _setup availability check | refuted in general (never raises) |
| C63 | _setup matching over an arbitrary listing | permutation invariance under uniqueness; refuted by the shipped names |
| C64 | ElectricDeck.shaftpower | arithmetic; refuted for nonzero power |
| C65 | _poly, JetDeck.sl_thrust | decision logic |
| C66 | local_data | decision logic, list membership |
| C67 | ansatzprop bookkeeping | arithmetic |
| C68 | efficiency loop with arbitrary step function | induction on the counter |
| C69 | bestclimbspeedprop | AM-GM type inequality |
| C70 | bank2turnradius | monotonicity of tan |
| C71 | liftslope_prad blending with arbitrary estimates | case split on Mach |
| C72 | closed-form estimates | positivity |
| C73 | k_100 quadratic | solves the 3x3 system explicitly |
| C74 | _meanchord_m | polynomial inequality |
| C75 | vs_keas | sqrt algebra, guards |
| C76 | sl_thrustcorr | list maximum |
| C77 | PistonDeck.tsfc with arbitrary interpolator | refuted by witness deck |
| C78 | efficiency's indexing | refuted; pointwise law for equal lengths |
| C79 | availability flags | decision logic |
| C80 | constraint functions on lists | map laws |
| C81 | decodemetar with arbitrary decoder | list slicing |
| C82 | all factors of unitconversions.py | rational arithmetic against the defined factors |
| C83 | Atmosphere.vsound_kts | decision logic on the container; refuted for two or more altitudes |
| C84 | powersensitivity with a range of weights | the evaluation ignores the weight; refuted |
| C85 | the study as a fold over the parameters | induction; colour list length |
| C86 | gust increment with weight fraction | algebra; refuted unless the fraction is 1 |
| C87 | point F of the envelope | order; refuted |
| C88 | sampled boundary against the stall parabola | order, list membership |
| C89 | _setup over an arbitrary listing | substring facts; refuted on the shipped listing |
| C90 | sl_thrustcorr | order |
| C91 | efficiency/thrust with NaN inputs | `Option` arithmetic, list induction |
| C92 | ansatzprop | algebra, limit for large power |
| C93 | efficiency loop | two-cycle of the iteration, induction on the turns |
| C94 | stored solidity | state after the call |
| C95 | turboprop tsfc, bsfc, thrust | algebra |
| C96 | blade drag parabola | polynomial sign |
| C97 | axis, shaded bounds, front of the combined chart | list extremes over a monotone axis; refuted at the last feasible point |
| C98 | focus masks: runs of indices | induction on the splitting into runs; refuted when no index is masked |
| C99 | vertical limit | list maximum |
| C100 | leading edge suction | suction curves bracketed by exp/tan bounds; convex combination |
| C101 | force balances | separate equilibrium specification; algebra |
| C102 | hydrostatic ISA | derivative of each layer; linear inequality for the relative gradient; mean value theorem |
| C103 | requirements with other items replaced | record update; congruence for the take-off; suction 0.92 at the design point against less than 0 away from it for the coupling |
| C104 | requirements with other coefficients | pointwise formulas, algebra |
| C105 | induced drag factor and turn at other lift coefficients and load factors | suction curves antitone, each slope formula below pi AR |
| C106 | take-off on another day and from another runway | density order of C13, pointwise formula |
| C107 | speed conversions of arrays | numpy broadcasting, element by element |
| C108 | lift slope of unswept wings | Helmbold formula as separate specification; limits by continuity |
| C109 | supersonic slope, transonic peak | delta wing formulas restated; monotonicity by algebra; the tabulated fit at its nearest entry |
| C110 | calibrated airspeed against the pitot equation | exact identity for the series, remainder bounded; gas law error of C14 |
| C111 | panel plots | panels as lists of views; induction over panels, row selection against a filter of the rows |
| C112 | drawing of the V-n diagram (`Model/EnvelopePlot.lean`) | lines and outlines as lists of points; loads against the gust formula, monotone lists of `linspace` points, bounds by convexity of the curves |
| C113 | demonstration plots (`DemoPlot` in `Model/Propulsion.lean`) | limits by `min`/`max` of the columns, grid as list of points, value against the query; the axis is in exact arithmetic (with floats the last step may add a point) |
| C114 | polynomial files (`Model/DeckFiles.lean`) | characters of the file; `float` of a field is an arbitrary function |
| C115 | printed list of engine data (`Model/DeckFiles.lean`) | counting of file names; explicit table of descriptions |
| C116 | the call of the sensitivity study (`Model/SensShow.lean`) | layers against the effects of C54, list by list; one colour per parameter by injectivity of positions |
| C117 | stored parameters without effect (`Model/Stored.lean`) | concept as a function of the dictionaries: equality after replacing the entries; defaults against a separate table |
| C118 | engine decks in the constraint analysis (`Model/DeckCorr.lean`) | `arange` as list of speeds, its largest element; link to the corrections of C38 |
| C119 | reference of the sea level mapping | factors at the reference condition; bound through theta0 ≤ 1 and pressure ratio; link to the cruise requirement |
| C120 | turboprop thrust table (`Model/TurbopropTable.lean`) | any surface through the nodes that clamps its arguments (`ThroughTable`, with a witness); comparisons of table entries; densities against the ISA formula |
| C121 | kinds of failure | the error value of each malformed input |
| C122 | Mach number in the efficiency estimate | estimate as max of floor and raw value times correction; powers bracketed by rational ones |
| C123 | pressure and density altitude off standard | density ratio by the offset law, power inverted by Bernoulli inequality from both sides; gradient from C102 |
| C124 | requirements inside a range | affine in the drag coefficient by the exact equations of C37-C41; reciprocal in the ground run; cruise: drag from below by the fixed term at low speed, induced drag factor bounded uniformly in the wing loading |
| C125 | documented examples | logarithm brackets with rational arithmetic (Lemmas/DocNum) give powers to all printed digits; induced drag factor of the example wing bounded through Oswald number, slope and suction estimates; doubles as validation of the model |
| C126 | shipped runway database | airport column and missing entries of runways.csv as packed numbers (tools/runways.py); one pass in the kernel shows alphabetical order up to case and counts; adjacency from the order by transitivity |
| C127 | conversions with a rounding after each operation (`Model/Float.lean`, `Model/UnitsFloat.lean`) | rounding as a monotone function with relative error; binary64 (ties to even) constructed and shown to be one; counterexamples evaluated in binary64 |
| C128 | constraint formulas with a rounding after each operation (`Model/ConstraintFloat.lean`) | counting of rounding factors `(1 + δ)` through products, quotients, square roots and sums of positive terms; the subtraction of the climb formula by a bound |
| C129 | ISA functions with a rounding after each operation (`Model/IsaFloat.lean`) | logarithms of the rounding factors through powers with rounded exponents; absolute errors for the affine parts, the offsets and the inverse functions |
| C130 | numbers of tests/t_atmospheres.py and tests/t_constraintanalysis.py | exact values bracketed as for C125; the tie and its resolution with `rd64`; lower bounds of the induced drag factor of the business jet |
| C131 | the data files of ADRpy/data/engine_data | tables as packed integers (tools/engines.py); decks computed from any listing of the files; bounds over all rows by evaluation in the kernel and a soundness lemma |
| C132 | the polynomial files of ADRpy/data/engine_data/Jet_CSVs | rational polynomials: Taylor shift, Horner lower bound and bisection, evaluated in the kernel and proved sound on the reals; derivative for monotonicity; identity theorem for the degree |
| C133 | the printed outputs of README.md and docs/ADRpy/notebooks | brackets of logarithms checked in the kernel (tools as for C125), interval arithmetic on reals, the MIL-HDBK-310 table |
| C134 | eas2tas and tas2eas of both modules, wsmaxcleanstall_pa, vstall_kias, vs_keas | definition of equivalent airspeed stated separately; gas law between days |
| C135 | the closed formulas of constraintanalysis.py, atmospheres.py and airworthiness.py (Model/Checked.lean) | a second arithmetic in which undefined operations have no value; calculus of exact definedness conditions (Lemmas/Checked) |
| C136 | the five requirements, `induceddragfact_lesm`, `liftslope_prad`, `oswaldspaneff4`, `map2static`, `_slcorr` | continuity of each formula on its domain, branches glued where they meet; jumps as exact differences or quotients |
| C137 | dictionaries with addresses, constructor and study as steps on a memory, programs as lists of steps | invariant over the steps: a dictionary that went through a constructor is a fixed point of every later one |
| C138 | requirements against a record that covers only some altitudes | decision of each evaluation by the set of covered altitudes, both directions |
| C139 | combined requirement on intervals and grids of wing loadings | compactness of the feasible interval, continuity from C136; quadratic form of the cruise bucket |
| C140 | `mil_hdbk_310`, `Obs`, `airpress_pa`, `airdens_kgpm3` | all 960 layers of the tables by kernel evaluation over the rationals; interpolation for altitudes in between |
| C141 | CS-23 formulas with a rounding after each operation (`Model/CsFloat.lean`) | rounding factors counted as in C128; two-point interpolation as a weighted mean of positive values whose weight is compared at the rounded and exact input |
| C142 | the formulas in binary64 with infinity and subnormal numbers (`Model/Ieee.lean`) | every operation checked to stay between 2⁻¹⁰⁰⁰ and 2¹⁰⁰⁰ by adding exponents through products, quotients, sums and square roots; equality with the unbounded arithmetic, then C128 and C141 |
| C143 | pairs of concepts with inputs within a factor r (`Within`) | exponents added through products, quotients, sums and one minus a square; indicated speeds refer to the sea level density, so the altitude drops out of climb and ceiling |
| C144 | thrust and power factors with a rounding after each operation (`Model/ThrustFloat.lean`) | rounding factors counted for the ratios; absolute errors for the brackets, in terms of the excess `max (θ − TR) 0`, which is Lipschitz and so covers both branches of the throttle test |
| C145 | the propulsion argument as a Python value (`Model/PropArg.lean`) | case analysis on the value; agrees with the sorted argument of C38; tuples of one deck refuted |
| C146 | warnings (`Model/Warnings.lean`) | a list of warnings beside each result; the set of warnings of a successful evaluation determined; silent substitutions and dead warnings refuted |
| C147 | warnings of the V-n diagram (`Model/VnWarnings.lean`) | the set of warnings of a diagram determined by its speeds and in physical terms; silent replacement of speeds refuted |
| C148 | warnings of the engine decks (`Model/DeckWarnings.lean`) | every query, fit and plot with its warnings; when each is issued; silent NaN, a wrong name and dead warnings refuted |
| C149 | warnings of the sensitivity study (`Model/SensWarnings.lean`) | the study with its own warnings and those of every evaluation; exactly which are issued; the silence about missing propulsion data and default efficiencies refuted |
| C150 | requirements with engine decks (`Model/DeckReq.lean`) | `twrequired` and `powerrequired` with the decks themselves: requirement at the condition over the correction there, NaN outside the table; mapping without effect refuted, deck without table refuted |
| C151 | shipped decks in the constraint analysis | the tables of C131 in the requirements of C150; NaN beyond the extents of the tables, factor between one and the ratio of extreme values up to the overshoot of the interpolation; Wasp Major at sea level and TFE731-5 below 6096 m refuted |
| C152 | Oswald estimates and induced drag factor with a rounding after each operation (`Model/AeroFloat.lean`) | rounding factors counted as in C128 where nothing is subtracted, absolute errors for the brackets and the quartic; the tangent through `sin (a - b) / (cos a cos b)`; the denominator of the second estimate is at least 2 |
| C153 | airspeeds in the ISA with a rounding after each operation (`Model/AirspeedFloat.lean`) | temperature, pressure and density from C129; rounding factors for the ratios, absolute errors for the bracket, which is at least 0.99 up to Mach 1 |
| C154 | stall speed, stall-limited wing loading and area, best climb speed and turn radius with a rounding after each operation (`Model/SpeedFloat.lean`) | density from C129, induced drag factor from C152, tangent from C152; the round trip composes the two computed functions and uses the knots drift of C03 |
| C155 | wind components, geopotential heights, gas law and conversion of true to equivalent airspeed with a rounding after each operation (`Model/WindFloat.lean`) | error of the angle times one, the slope of sine and cosine, plus four units in the last place for numpy; rounding factors for the rest, equal computed factors cancel in the round trips |
| C156 | density altitude with a rounding after each operation (`Model/AltFloat.lean`), composed with the computed pressure and density of C129 | inverse of the power and exponential layers as in C129, now for arguments that carry roundings; the boundary values are avoided by a margin |
| C157 | the requirements with the densities of the ISA and the thrust correction of a piston engine filled in (`Model/PistonFloat.lean`), against the methods `twrequired_*` of `Model/Constraint.lean` | counting of roundings as in C128 with separate counts for density, thrust correction and induced drag factor; the subtraction in the thrust correction is bounded by the power left |
| C158 | the powers of `powerrequired` with the densities and true airspeeds of the ISA filled in (`Model/PistonFloat.lean`), against the method of `Model/Constraint.lean` returning a value | the same counting, the thrust requirement not mapped to sea level, the power correction of a propulsion string being 1; the combined values through the largest of five, whose error is at most the largest of the five errors |

`Props/Cases.lean` holds further concrete cases, for theorems whose cases need a whole worked design or deck (C32, C54, C84, C109, C118, C137, C145).

## Notes on single modules

* **atmospheres.py.** `Atmosphere` is either an ISA with an offset or an observed profile, that is a
  table with linear interpolation (`interp1d`, outside the table ValueError). The MIL-HDBK-310 tables
  are Lean data, copied from the csv files of the package. `Runway` works over an arbitrary list of
  rows in file order; the csv reading itself is not modelled.
* **constraintanalysis.py.** The constructor is a function from four dictionaries and the propulsion
  argument to the concept and the dictionaries as they are afterwards. `AircraftConcept` methods take
  the concept as argument. The lift slope is modelled with its estimates and blending weights; the
  cubic interpolant used in the transonic range is an arbitrary function (`Ext.cubic`). The charts of the
  sensitivity study are modelled up to the numbers handed to matplotlib (`Model/SensPlot.lean`).
* **airworthiness.py.** The envelope is the list of numbers that would be plotted. The printing of
  tables is left out; the drawing is the list of its lines, marks and limits (`Model/EnvelopePlot.lean`). `np.linspace` is modelled by its formula.
* **propulsion.py.** A deck is built from an arbitrary directory listing (names in listing order) and an
  arbitrary table reader; the shipped listing occurs as a concrete witness. `griddata` and the fitted
  polynomials are arbitrary functions with `none` for NaN. The propeller iteration is modelled with its
  counter and with the stored solidity as state.

## Violations: disagreements between code and documentation, all proved

Each entry names the theorems (suffix `_violated`). The positive theorem on what does hold is listed
under the same property in `MANIFEST.json`.

Units and atmosphere

* `kts2mps` and `mps2kts` are not inverse; each round trip shrinks or grows the value (C03).
* ISA pressure and density jump up at 20 km and 47 km (C12, C13). In very cold air (offset -200 K)
  density rises with altitude inside the first layer (C13).
* Pressure altitude and density altitude are wrong in bands at the layer boundaries. The bands are
  determined exactly (C15, C16). Density altitude of a list raises when an element is in the second layer
  or above the third (C16).
* Density altitude ignores the temperature offset of the object (C123).
* The sensitivity study evaluates ranges at their ends only; in cruise speed the requirement inside the range can be
  lower than at both ends (C124).
* The documented climb and turn examples print thrust to weight ratios larger than the code returns; the sea level thrust
  example of the JT8D-9 is off in the sixth decimal (C125).
* Three quarters of the runways in the shipped database cannot be used: missing elevations, headings, widths and lengths
  raise ValueError (C126).
* Unit conversions there and back are not exact in floating point, 7 ft or 1001 m for instance; temperatures very near
  0 degrees Celsius come back as 0 (C127).
* The expected temperature at 9984.3 m in the unit tests is not the correctly rounded one; the test passes by rounding error.
  The recorded thrust to weight ratios of climb and turn are not those of the code; the assertions compare `.all()` only (C130).
* The correction factors of the F404-400 and of the Tyne are not relative to sea level, those of the TFE731-5 are relative to 6096 m; engines without
  values at rest or at altitude zero give NaN in the constraint analysis; the J52 consumption plot raises ValueError (C131).
* The sea level thrust polynomials are of degree seven, not six; three rise over part of their range; the JT8D-9 has no take-off thrust at Mach zero;
  a documented value does not come from the data file (C132).
* The README calls speeds KEAS that are relative to the density of a hot atmosphere, and a notebook gives the climb speed under a key that is not read (C133).
* Equivalent airspeeds of an atmosphere object are relative to its own sea level density; the stall limit of the wing loading and the stall speed
  use different days, so on a cold day the limit does not meet the required stall speed; equivalent stall speeds move with the temperature (C134).
* The sea level correction of piston engines passes through zero between 11 and 20 km, and the requirement is divided by it (C135).
* The static take-off requirement jumps by a ninth at the bypass ratio 1; the generic jet corrections jump at the bypass ratios 0 and 5; the supersonic lift slope
  jumps where the leading edge loses its sweep and where it becomes supersonic; the slope peak jumps with the aspect ratio (C136).
* The sensitivity study builds its nominal concept from the dictionaries again: entries or attributes set after the concept was made make
  its nominal curve differ from the requirement of the concept (C137).
* An observed atmosphere that starts above sea level cannot convert airspeeds at any altitude, so the climb, ceiling, combined and power
  requirements and the stall limit fail for a brief that it covers (C138).
- `mil_hdbk_310` data: in 27 of the 960 layers of 2 km, next to misprinted entries, the pressure lost is not the weight of the
  air; in six of them pressure rises with altitude (C140).
* Altitudes above 50 km are announced as limited to 50 km; they are not (C17).
* "Positive Mach no. returned" is announced for negative speeds; the result is negative (C18).
* The speed of sound in knots fails for two or more altitudes (C83).
* The CAS approximation has the wrong sign at high Mach number (C20).
* `keas2kcas` returns one-element arrays for a single speed (C107).
* One MIL-HDBK-310 profile has 0 K at 50 km and three have rising density (C27).
* Negative runway numbers select a runway of another airport (C10).
* A profile of one altitude with pressure and no density is refused (C121).
* A METAR history with mixed line endings loses characters (C31).

Concept and constraints

* Dictionaries of the caller are filled in and their ranges replaced by numbers, so that a second
  concept built from them differs (C34).
* The quarter-chord sweep default is not the documented weighted mean (C36).
* The climb constraint does not scale with the climb weight fraction alone (C44).
* The turn constraint uses the climb fraction (C45).
* Climb, ceiling and turn requirements depend on the cruise speed through the suction curve (C103).
* Leading edge suction is negative far from the cruise lift coefficient, so the induced drag factor exceeds
  that of zero suction (C100).
* The sea-level mapping of required power does nothing for the generic propulsion types (C51).
* The stall speed raises TypeError on arrays (C52).
* The sensitivity study drops parameters whose effect vanishes at one wing loading, and without a
  propulsion argument its nominal curve lacks the sea-level mapping of the concept (C54).
* The combined chart shades the largest feasible wing loading as unattainable (C97). Masks end in a
  ValueError when a constraint is nowhere below the combined requirement (C98).
* A range of take-off weights has no effect on the power sensitivity study (C84).
* A limit of the vertical axis given as a numpy number is ignored (C116).
* Head wind, runway gradient, spool-up time, static thrust, runway angles of attack, runway drag and lift and the
  take-off weight fraction have no effect on any requirement; the fraction is not stored (C117).
* The sea level mapping of a jet with bypass ratio zero is not relative to sea level static thrust; low bypass and dry
  turbojet factors exceed 1 (C119). The turboprop table has less thrust at sea level than higher up from Mach 0.3
  on (C120).
* A tuple holding only an engine deck is dropped, as are lists; a pair that does not begin with the deck corrects nothing (C145).
* A pair without a deck is not announced; the codes −1, −2, −3 draw no deprecation warning, the values between them do; the warning of
  negative airspeeds is dead; a Mach number without a choice of estimates is ignored in silence (C146).
* The V-n diagram replaces cruise and dive speeds below the minima in silence; the warning on 0.9 times the level speed comes at every
  cruise speed once the minimum exceeds it; figure sizes are checked for lists only (C147).
* Outside a table a deck answers NaN in silence; a turboprop without consumption table reports the wrong quantity; the warnings of its
  plots are dead (C148).
* The sensitivity study is silent about missing propulsion data and default efficiencies, which the requirement of the same concept
  announces; a misspelt chart name draws nothing in silence, a limit of 0 is kept (C149).
* `map2sl` has no effect on thrust with turboprop, piston and electric decks nor on power with jet decks, silently; a deck without its table
  raises even without the mapping; the two messages about missing mappings (constraintanalysis.py:1132-1140) are dead (C150).
* With the Wasp Major deck a runway at sea level, with the TFE731-5 deck one below 6096 m, turns the combined requirement into NaN at every wing
  loading; so does a ceiling, cruise, climb or turn beyond the table of any deck (C151).

Airworthiness

* Negative manoeuvre limits of the utility and aerobatic categories are those of the normal
  category (C55).
* The propulsion argument does not reach the concept (C61).
* The gust increment is divided by the weight fraction a second time (C86).
* Point F does not reach the negative manoeuvre limit (C87).
* When VA exceeds VC, the drawn outline jumps at VC to a load the wing cannot produce there (C112).

Propulsion

* The check for unknown engine names never fires (C62).
* Which table a deck uses can depend on the order of the directory listing (C63), and a deck for the
  common part of two engine names mixes their tables (C89).
* Electric shaft power is half of angular speed times torque (C64).
* Piston fuel consumption reads the power table at the Mach number instead of the engine speed (C77).
* Propeller efficiency indexes the other arguments by the position of the power (C78).
* Data availability checks of the turboprop plots never fire, derived quantities raise, the total thrust of a
  turboprop without a hot thrust table raises (C79).
* A blank in the first row of a table column makes the demonstration plot raise though queries answer; the shipped
  J52 fuel consumption table has one (C113).
* The printed list leaves out best power fuel consumption tables and sea level polynomials, which the decks use, and
  has take-off thrust tables, which no deck uses (C115).
* The thrust correction refers to the largest tabulated thrust (C90).
* The correction of a piston deck in the constraint analysis is taken at the highest speed considered, not at the
  speed of greatest power (C118).
* One NaN makes the generic propeller fail for the whole query (C91); it exceeds its tip Mach limit (C92).
* The efficiency iteration can return values above 1 (C93); its blade drag can be negative (C96).
* The solidity is stored at the first call and never updated (C94).
* Turboprop consumption is per unit of propeller thrust, not of total thrust (C95).

## Axioms

`#print axioms` on every theorem gives a subset of `propext`, `Classical.choice`, `Quot.sound`. The
numeric brackets of logarithms in `Lemmas/ISANum.lean` are kernel-checked rational series bounds.

## Not modelled

Rendering of plots, printing (other than the list of C115), csv/pandas parsing (the polynomial files are read from their characters), `griddata`/spline/cubic interpolation values, the METAR
parser, floating point rounding outside the `*Float.lean` modules, overflow outside `Model/Ieee.lean`.
