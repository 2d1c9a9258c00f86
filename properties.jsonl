{"id": "C01", "title": "Paired unit conversions are inverse", "statement": "For every pair of conversion functions whose names announce them as inverse (feet/metres, ft2/m2, km/m, Celsius/Kelvin, Celsius/Rankine, Kelvin/Rankine, Pa/mbar, inHg/mbar, mbar/lbf-ft2, kg/N, lb/kg, lbf/N, kW/hp, kg-m3/slug-ft3, Pa/lbf-ft2), converting a value and converting it back returns the same value, in both directions.", "quantifier": "every real input value of every pair", "why_tests_cant": "infinitely many values; a spot check of one value cannot tell an affine map with a wrong slope or offset from the right one", "anchors": ["ADRpy/unitconversions.py: feet2m,m2feet,feet22m2,m22feet2,m2km,km2m,c2k,k2c,c2r,r2c,k2r,r2k,pa2mbar,mbar2pa,inhg2mbar,mbar2inhg,mbar2lbfft2,lbfft22mbar,kg2n,n2kg,lbs2kg,kg2lbs,lbf2n,n2lbf,kw2hp,hp2kw,kgm32sft3,sft32kgm3,pa2lbfft2,lbfft22pa"]}
{"id": "C02", "title": "Temperature conversion paths agree", "statement": "Converting a temperature between the Celsius, Kelvin and Rankine scales gives the same number whichever chain of conversion functions is used, and every one of them preserves order (a hotter input gives a hotter output).", "quantifier": "all real temperatures and all chains between the three scales", "why_tests_cant": "agreement at one temperature does not imply agreement of the affine maps", "anchors": ["ADRpy/unitconversions.py: c2k,k2c,c2r,r2c,k2r,r2k,c2f"]}
{"id": "C03", "title": "Knots and metres per second are not drift free, but the drift is bounded", "statement": "mps2kts and kts2mps are advertised as a pair; they are not exact inverses. For any speed, converting out and back any number n of times multiplies the speed by exactly the same factor to the power n, and that factor lies between 1-1e-7 and 1, so the result never grows, keeps its sign, and after n round trips the relative error is at most n*1e-7.", "quantifier": "all real speeds and all numbers of round trips", "why_tests_cant": "a test sees one round trip at one speed and rounds the drift away; the claim is about any history of conversions", "anchors": ["ADRpy/unitconversions.py: mps2kts,kts2mps"]}
{"id": "C04", "title": "Parallel pressure conversion routes agree to a stated tolerance", "statement": "Converting Pa to lbf/ft2 directly, or through mbar, gives results that differ by a fixed relative amount below 1e-5, and Pa to kg/m2 and back differs from the identity by a relative amount below 1e-10; neither is exact.", "quantifier": "all real pressures", "why_tests_cant": "the discrepancy is a property of the constants, seen at every value, and a rounded comparison hides it", "anchors": ["ADRpy/unitconversions.py: pa2lbfft2,pa2mbar,mbar2lbfft2,pa2kgm2,kgm22pa"]}
{"id": "C05", "title": "TAS/EAS conversions are inverse", "statement": "For any positive air density, eas2tas(tas2eas(v, rho), rho) = v and the other way round; EAS equals TAS at 1.225 kg/m3, EAS is below TAS in thinner air and above it in denser air, for positive speeds.", "quantifier": "all speeds and all positive densities", "why_tests_cant": "continuum of densities", "anchors": ["ADRpy/unitconversions.py: tas2eas,eas2tas"]}
{"id": "C06", "title": "Ideal gas helpers are inverse and positive", "statement": "For positive temperature, idealgasdens(idealgaspress(rho,T),T)=rho and idealgaspress(idealgasdens(p,T),T)=p; both are positive for positive inputs and increase with their first argument.", "quantifier": "all positive temperatures, all pressures and densities", "why_tests_cant": "continuum of inputs", "anchors": ["ADRpy/atmospheres.py: idealgasdens_kgm3,idealgaspress_pa"]}
{"id": "C07", "title": "Geometric and geopotential altitude are inverse and ordered", "statement": "On the physical domain the two altitude conversions undo each other; the geopotential altitude is below the geometric altitude except at zero where they agree; both conversions are strictly increasing; a geopotential altitude never reaches the Earth radius.", "quantifier": "all geometric altitudes above minus the Earth radius, and all geopotential altitudes below it", "why_tests_cant": "ordering and bijectivity over a continuum", "anchors": ["ADRpy/atmospheres.py: geom2geop45m,geop2geom45m"]}
{"id": "C08", "title": "Reciprocal heading", "statement": "For a heading in [0,360] the reciprocal heading lies in (0,360], differs from it by exactly 180 degrees, and taking it twice returns the heading, except that north given as 0 comes back as 360.", "quantifier": "all headings in [0,360]", "why_tests_cant": "boundary values 0, 180, 360 and every value between", "anchors": ["ADRpy/atmospheres.py: reciprocalhdg"]}
{"id": "C09", "title": "Wind components resolve the wind vector", "statement": "Headwind and crosswind reported for a runway satisfy head^2+cross^2=speed^2, do not change when the wind direction is shifted by full turns, ignore the sign of the reported speed, flip sign together when the wind comes from the opposite direction, and rotating wind and runway by the same angle changes nothing. A wind along the runway is all headwind, a wind from the right is all positive crosswind.", "quantifier": "all wind directions, speeds and runway headings; lists of any length", "why_tests_cant": "trigonometric identities over a continuum, and lists of any length", "anchors": ["ADRpy/atmospheres.py: Runway.windcomponents"]}
{"id": "C10", "title": "Runway lookup returns the requested airport", "statement": "Building a runway from a database and a code succeeds only when the code occurs and the requested number is below the number of its runways, reports that number, and then every field of the result comes from a database row of that airport, provided the rows of an airport are contiguous in the database; otherwise a ValueError is raised.", "quantifier": "all databases, codes and runway numbers", "why_tests_cant": "any database contents; a test has one shipped file", "anchors": ["ADRpy/atmospheres.py: Runway.__init__"]}
{"id": "C11", "title": "ISA temperature is continuous and bounded", "statement": "The ISA temperature as a function of altitude has no jump at any layer boundary, changes by at most 6.5 K per km between any two altitudes, is at least 216.65 K everywhere, and a temperature offset shifts it by exactly the offset.", "quantifier": "all altitudes and all offsets", "why_tests_cant": "pairs of altitudes across all layers", "anchors": ["ADRpy/atmospheres.py: Atmosphere._isatemp_k,Atmosphere.airtemp_k"]}
{"id": "C12", "title": "ISA pressure decreases with altitude", "statement": "The ISA pressure is positive, does not depend on the temperature offset, and of two altitudes the higher one has the lower pressure. (The last claim holds inside each layer and across the 11 km and 32 km boundaries but fails across the 20 km and 47 km boundaries, where the pressure jumps up.)", "quantifier": "all pairs of altitudes from -5 km to 50 km, all offsets", "why_tests_cant": "a test compares a few altitudes against tables with rounding and cannot see the jumps", "anchors": ["ADRpy/atmospheres.py: Atmosphere._isapress_pa,Atmosphere.airpress_pa"]}
{"id": "C13", "title": "ISA density decreases with altitude and follows the offset law", "statement": "The ISA density is positive whenever the offset temperature is, the product of density and temperature does not depend on the offset, and of two altitudes the higher one has the lower density. (For offsets of at least -100 K the last claim holds inside each layer and across the 11 km and 32 km boundaries; it fails across 20 km on every day and across 47 km on the standard day, and with an offset of -200 K it fails inside the first layer.)", "quantifier": "all pairs of altitudes from -5 km to 50 km and all offsets keeping the temperature positive", "why_tests_cant": "as for pressure", "anchors": ["ADRpy/atmospheres.py: Atmosphere._isadens_kgpm3,Atmosphere.airdens_kgpm3"]}
{"id": "C14", "title": "ISA state satisfies the ideal gas law", "statement": "At every altitude and for every offset, the pressure, density and temperature reported by the ISA satisfy p = rho R T up to a relative error of 3e-7.", "quantifier": "all altitudes from -5 km to 50 km, all offsets with positive temperature", "why_tests_cant": "p, rho and T come from separate fitted formulas; agreement over the continuum cannot be sampled", "anchors": ["ADRpy/atmospheres.py: Atmosphere._isapress_pa,_isadens_kgpm3,_isatemp_k"]}
{"id": "C15", "title": "Pressure altitude inverts pressure", "statement": "The pressure-altitude function applied to the ISA pressure at an altitude returns that altitude. (False in exactly four bands at the layer boundaries, a nanometre above 11 km and 32 km and up to five centimetres below 20 km and 47 km; the result is exact everywhere else and within 0.1 m everywhere.)", "quantifier": "all altitudes from -5 km to 50 km", "why_tests_cant": "continuum; the failing bands are centimetres wide", "anchors": ["ADRpy/atmospheres.py: Atmosphere._isapressalt_m,_isapress_pa"]}
{"id": "C16", "title": "Density altitude inverts density", "statement": "The density-altitude function applied to the zero-offset ISA density at an altitude returns that altitude. (False in exactly three bands, a nanometre above 11 km and up to five centimetres below 20 km and 47 km; exact everywhere else and within 0.1 m everywhere.) For a list of more than one density the function raises as soon as an element lies in the 11-20 km layer or above 32 km; lists staying in the other layers are answered element by element.", "quantifier": "all altitudes from -5 km to 50 km; lists of any length", "why_tests_cant": "continuum and lists of any length", "anchors": ["ADRpy/atmospheres.py: Atmosphere._isadensalt_m,_isadens_kgpm3"]}
{"id": "C17", "title": "Out-of-range altitudes are limited", "statement": "A query above 50 km in an ISA, or outside the table of an observed profile, is announced as being limited to the range. (The code raises a TypeError on every such query instead.) Queries inside the range are passed through unchanged.", "quantifier": "all query altitudes or lists of them, all profiles", "why_tests_cant": "needs every in- and out-of-range combination, for lists of any length", "anchors": ["ADRpy/atmospheres.py: Atmosphere._alttest,Atmosphere.airtemp_k,Atmosphere.airpress_pa,Atmosphere.airdens_kgpm3"]}
{"id": "C18", "title": "Mach number is not negative", "statement": "The Mach number returned for an airspeed is announced as positive for any airspeed. (The code returns a negative Mach number for every negative airspeed.) For any airspeed the magnitude is the ratio to the local speed of sound.", "quantifier": "all airspeeds and altitudes", "why_tests_cant": "a property of every sign pattern of an array of airspeeds", "anchors": ["ADRpy/atmospheres.py: Atmosphere.mach"]}
{"id": "C19", "title": "TAS, EAS and dynamic pressure agree within one atmosphere", "statement": "In any atmosphere, eas2tas and tas2eas at an altitude are inverse, agree at sea level, and the dynamic pressure at TAS v and altitude h equals the sea-level dynamic pressure at the corresponding EAS. In the ISA, EAS is at most TAS at any altitude from 0 to 50 km.", "quantifier": "all speeds, all altitudes, all atmospheres with positive density", "why_tests_cant": "continuum; involves density ordering through all layers", "anchors": ["ADRpy/atmospheres.py: Atmosphere.eas2tas,tas2eas,dynamicpressure_pa"]}
{"id": "C20", "title": "EAS to CAS correction", "statement": "At sea level of any atmosphere CAS equals EAS. Where the pressure is at most one ninth of the sea-level pressure, CAS is at least EAS for every speed. Everywhere below sea-level pressure CAS is at least EAS for all Mach numbers up to 1.7. The Mach number returned alongside is that of the true airspeed.", "quantifier": "all EAS >= 0, all altitudes, all atmospheres with positive pressure and density", "why_tests_cant": "sign of a quartic over a two-dimensional range", "anchors": ["ADRpy/atmospheres.py: mpseas2mpscas,keas2kcas"]}
{"id": "C21", "title": "Stagnation ratios", "statement": "The temperature and pressure ratios are at least their static values, grow with Mach number, equal the static ratios at Mach 0, do not depend on the sign of the Mach number, and the pressure ratio is the isentropic power of the temperature ratio.", "quantifier": "all temperatures, pressures and Mach numbers", "why_tests_cant": "continuum", "anchors": ["ADRpy/atmospheres.py: tempratio,pressratio,tatbysat"]}
{"id": "C22", "title": "Turbofan thrust factor", "statement": "The factor agrees on both sides of the theta break (the altitude/Mach condition where the stagnation temperature ratio equals the throttle ratio), is proportional to pressure, does not exceed the stagnation pressure ratio, and does not fall when the throttle ratio is raised. Any type string other than highbpr and lowbpr gives the low-bypass military-power factor.", "quantifier": "all temperatures, pressures, Mach numbers >= 0, throttle ratios and type strings", "why_tests_cant": "two-sided limit at the break for every condition", "anchors": ["ADRpy/atmospheres.py: turbofanthrustfactor"]}
{"id": "C23", "title": "Turbojet and turboprop thrust factors", "statement": "The turbojet factor is continuous across the theta break with and without afterburner. The analytical turboprop factor equals the pressure ratio up to Mach 0.1; above the theta break it has no lower bound as the Mach number approaches 0.1 from above, so it jumps and becomes negative.", "quantifier": "all conditions", "why_tests_cant": "behaviour in a limit", "anchors": ["ADRpy/atmospheres.py: turbojetthrustfactor,turbopropthrustfactor_matt"]}
{"id": "C24", "title": "Piston power factor", "statement": "The factor is 1 at standard density, affine and strictly increasing in density, negative exactly below 0.132/1.132 of standard density, and never above 1 in air thinner than standard.", "quantifier": "all densities", "why_tests_cant": "continuum", "anchors": ["ADRpy/atmospheres.py: pistonpowerfactor"]}
{"id": "C25", "title": "Observed profile completion and interpolation", "statement": "A profile built from altitude, temperature and density (or pressure) columns of equal length satisfies the ideal gas law at each tabulated altitude; a query at a tabulated altitude returns the tabulated value, a query between two returns a value between the neighbouring values, and a query outside raises. Whenever a profile is made at all, its altitudes and temperatures were given, its columns have equal length and the gas law holds at every point. The order in which the rows are given does not matter.", "quantifier": "all tables of any length with distinct altitudes, in any order, all queries", "why_tests_cant": "any table, any query", "anchors": ["ADRpy/atmospheres.py: Obsprofile.__init__,loalt,hialt"]}
{"id": "C26", "title": "Interpolated profiles and the ideal gas law", "statement": "Between tabulated altitudes pressure, density and temperature are interpolated separately; the interpolated pressure exceeds R rho T when density and temperature both fall (or both rise) across the interval and is below it when one rises and the other falls.", "quantifier": "all profiles and all queries between two tabulated altitudes", "why_tests_cant": "sign over a continuum", "anchors": ["ADRpy/atmospheres.py: Obsprofile.__init__,mil_hdbk_310"]}
{"id": "C27", "title": "Shipped MIL-HDBK-310 tables are physical", "statement": "Each of the twelve shipped data files gives two profiles with strictly increasing altitudes, positive temperatures and strictly decreasing positive densities, so that every query in range returns positive values. (One shipped profile contains a temperature of zero, three contain densities that rise with altitude.)", "quantifier": "all 24 shipped profiles and every altitude in range", "why_tests_cant": "tests read one value of one file", "anchors": ["ADRpy/atmospheres.py: mil_hdbk_310", "ADRpy/data/_MHDBK310/*.m310"]}
{"id": "C28", "title": "polyblend is a monotone blend", "statement": "For a positive blend duration the blended signal equals the initial value before time 0, the final value from the end on, always lies between the two, is monotone in time in the direction from initial to final, and is continuous; a zero duration raises a ZeroDivisionError.", "quantifier": "all signal pairs, durations and times", "why_tests_cant": "all times, ordering of pairs of times", "anchors": ["ADRpy/mtools4acdc.py: polyblend"]}
{"id": "C29", "title": "Axis rotation preserves lengths", "statement": "The coordinate transformation preserves vector length and inner products, composing two rotations adds the angles, and rotating by the opposite angle undoes it.", "quantifier": "all vectors and angles", "why_tests_cant": "continuum", "anchors": ["ADRpy/mtools4acdc.py: _coordtrans"]}
{"id": "C30", "title": "Flight data window", "statement": "The window selection of flight data keeps exactly the samples with start <= time <= end, in their original order, with the same samples selected from every channel.", "quantifier": "all recordings, all window limits", "why_tests_cant": "lists of any length", "anchors": ["ADRpy/mtools4acdc.py: fdrplot"]}
{"id": "C31", "title": "Weather history file reading", "statement": "Reading a METAR history file returns the lines without their terminators: for a file whose lines end in '=' before the newline the '=' is dropped too; the decision is taken from the first line only, so a later line with a different ending, or a last line without newline, loses characters of its content.", "quantifier": "all files", "why_tests_cant": "any line structure", "anchors": ["ADRpy/weathertools.py: readmethistfile"]}
{"id": "C32", "title": "Missing entries get defaults and present entries are kept", "statement": "After constructing a concept, every key of the documented defaults is present in its brief, design and performance dictionaries; a scalar key the user gave keeps the given value (also when this value is 0), an absent key has the documented default; sub-dictionary entries are filled entry by entry; keys unknown to the library are kept.", "quantifier": "all dictionaries with any subset of keys and any values", "why_tests_cant": "exponentially many key subsets and arbitrary values", "anchors": ["ADRpy/constraintanalysis.py: AircraftConcept.__init__"]}
{"id": "C33", "title": "Constructor is idempotent on its own output", "statement": "Constructing a second concept from dictionaries that already went through a constructor leaves them unchanged and gives the same numeric attributes; only the records of which defaults were used, and the design space (now made of the averages), start afresh.", "quantifier": "all dictionaries accepted by the constructor", "why_tests_cant": "any history of constructions", "anchors": ["ADRpy/constraintanalysis.py: AircraftConcept.__init__"]}
{"id": "C34", "title": "Caller's dictionaries are not changed", "statement": "Constructing a concept leaves the dictionaries passed by the caller unchanged. (False: non-empty dictionaries are filled in and ranges in them are replaced by their averages, so a second concept built from the same dictionaries loses its ranges.) Empty dictionaries are left unchanged.", "quantifier": "all dictionaries", "why_tests_cant": "histories of two or more constructions sharing dictionaries", "anchors": ["ADRpy/constraintanalysis.py: AircraftConcept.__init__"]}
{"id": "C35", "title": "Ranges are averaged for the point design and kept for the design space", "statement": "For a list-valued entry the attribute is the arithmetic mean, lies between the smallest and largest listed value, and the design space retains the list; an empty list raises ZeroDivisionError.", "quantifier": "all lists of any length", "why_tests_cant": "lists of any length", "anchors": ["ADRpy/constraintanalysis.py: AircraftConcept.__init__"]}
{"id": "C36", "title": "Sweep and taper defaults", "statement": "Unspecified sweeps: leading edge 0, maximum thickness sweep equals leading edge sweep, quarter-chord sweep is documented as a 2/7 : 5/7 weighted mean of the two. (The code computes 2*LE + 5/7*MT.) Unspecified taper ratio is 0.45*exp(-0.0375*sweep25), hence positive and decreasing in sweep. A list-valued leading edge sweep with unspecified quarter-chord sweep raises a TypeError.", "quantifier": "all combinations of given and missing sweeps, all values", "why_tests_cant": "all given/missing combinations over a continuum", "anchors": ["ADRpy/constraintanalysis.py: AircraftConcept.__init__"]}
{"id": "C37", "title": "Propulsive efficiency defaults", "statement": "Exactly the efficiencies not given are replaced by the documented defaults and the number reported in the later warning is their count.", "quantifier": "all subsets of the five phases", "why_tests_cant": "all subsets", "anchors": ["ADRpy/constraintanalysis.py: AircraftConcept.__init__,powerrequired"]}
{"id": "C38", "title": "Propulsion argument parsing and sea-level correction dispatch", "statement": "Which correction model is used is a total function of the propulsion argument and the bypass ratio, as documented: strings select a generic model, a tuple or a deck object selects a deck, and without argument the bypass ratio decides; a bypass ratio below -3 raises, a negative bypass ratio with 'jet' raises, other non-listed values give no correction.", "quantifier": "all propulsion arguments and all bypass ratios", "why_tests_cant": "all real bypass ratios, including non-integers between the special codes", "anchors": ["ADRpy/constraintanalysis.py: AircraftConcept.__init__,_propulsion_slcorr"]}
{"id": "C39", "title": "Oswald estimate selection", "statement": "The induced drag factor for a method selection depends only on the set of digits of the selector that lie in 1..4 (order and repetition do not matter); with no such digit the default (methods 2 and 4) is used; a negative selector raises ValueError.", "quantifier": "all integer selectors", "why_tests_cant": "all integers of any length", "anchors": ["ADRpy/constraintanalysis.py: induceddragfact"]}
{"id": "C40", "title": "Oswald efficiency bounds", "statement": "The second method gives an efficiency strictly between 0 and 1 for every positive aspect ratio and every sweep, falling strictly with the magnitude of the sweep and at least one half for an unswept wing; the fourth lies between 0.001 and 0.85 for every taper ratio, sweep and Mach number. Consequently the induced drag factor of the default selection is positive and larger than 1/(pi*AR).", "quantifier": "all positive aspect ratios, all sweeps with nonzero cosine, all taper ratios, all Mach numbers", "why_tests_cant": "continuum", "anchors": ["ADRpy/constraintanalysis.py: oswaldspaneff2,oswaldspaneff4,induceddragfact"]}
{"id": "C41", "title": "Chord sweep interpolation", "statement": "The sweep at a chord fraction is the leading edge value at 0, the quarter-chord value at 0.25, affine in between and beyond, and a fraction outside [0,1] or a missing one raises ValueError.", "quantifier": "all sweeps and all fractions", "why_tests_cant": "continuum and all out-of-range values", "anchors": ["ADRpy/constraintanalysis.py: findchordsweep_rad"]}
{"id": "C42", "title": "Level-flight thrust requirement has the classical bucket shape", "statement": "With a constant induced drag factor k, the cruise thrust-to-weight requirement as a function of wing loading is never below 2*sqrt(k*CDmin) (times the weight fraction over throttle), attains this at exactly one wing loading, decreases before and increases after it.", "quantifier": "all positive parameters and wing loadings", "why_tests_cant": "continuum; location of a minimum", "anchors": ["ADRpy/constraintanalysis.py: twrequired_crs"]}
{"id": "C43", "title": "Climb requirement decomposes into gradient plus drag", "statement": "The climb requirement exceeds the level-flight requirement at the same speed, altitude and weight fraction by the climb gradient minus the induced relief; the gradient equals the ratio of the indicated climb rate to the indicated climb speed, independent of the altitude and atmosphere; the requirement increases with climb rate below a stated bound.", "quantifier": "all positive parameters", "why_tests_cant": "continuum", "anchors": ["ADRpy/constraintanalysis.py: twrequired_clm,twrequired_sec"]}
{"id": "C44", "title": "Weight fractions scale requirements consistently", "statement": "A requirement at wing loading w and weight fraction f equals f times the requirement at wing loading w*f and weight fraction 1. For turn and cruise this holds as it stands. For climb and service ceiling it holds when the cruise weight in newtons is kept, i.e. the cruise weight fraction is divided by f. (With an unchanged cruise weight fraction it is false for climb and service ceiling: the induced drag factor refers to the cruise lift coefficient at the unscaled wing loading.)", "quantifier": "all wing loadings, weight fractions and design parameters", "why_tests_cant": "continuum of both", "anchors": ["ADRpy/constraintanalysis.py: twrequired_clm,twrequired_crs,twrequired_sec,twrequired_trn,induceddragfact_lesm"]}
{"id": "C45", "title": "Turn requirement uses the turn weight fraction only", "statement": "The sustained turn requirement is stated in terms of the turn weight fraction. (False: the required lift coefficient and the induced drag also scale with the climb weight fraction.) With climb weight fraction 1 and load factor 1 the requirement equals the level-flight requirement at the turn speed.", "quantifier": "all design parameters", "why_tests_cant": "needs two weight fractions to differ; continuum", "anchors": ["ADRpy/constraintanalysis.py: thrusttoweight_sustainedturn,twrequired_trn"]}
{"id": "C46", "title": "Turn feasibility marking", "statement": "The feasible turn requirement agrees with the plain one exactly at wing loadings whose required lift coefficient does not exceed the clean maximum and is NaN at all others; feasibility is downward closed in wing loading; with CLmaxclean unspecified every positive wing loading is marked infeasible.", "quantifier": "all wing loading arrays of any length, all parameters", "why_tests_cant": "arrays of any length", "anchors": ["ADRpy/constraintanalysis.py: twrequired_trn"]}
{"id": "C47", "title": "Combined requirement is the largest requirement", "statement": "At each wing loading the combined requirement is at least each individual one and equal to one of them; with feasible-only selected it is NaN exactly where the turn is infeasible.", "quantifier": "arrays of any length", "why_tests_cant": "arrays of any length with NaN entries at any positions", "anchors": ["ADRpy/constraintanalysis.py: twrequired,powerrequired"]}
{"id": "C48", "title": "Missing brief items raise", "statement": "A constraint evaluation whose required brief item was not specified raises ValueError, and the combined evaluation raises in the same situations; with all items given none of these errors occurs.", "quantifier": "all subsets of missing items", "why_tests_cant": "all subsets", "anchors": ["ADRpy/constraintanalysis.py: twrequired_to,twrequired_trn,twrequired_clm,twrequired_crs,twrequired_sec,twrequired"]}
{"id": "C49", "title": "Take-off requirement", "statement": "The take-off requirement grows with wing loading and falls with available ground run and air density; the lift-off speed is 1.1 times the stall speed at take-off CLmax, the average speed is lift-off speed over sqrt 2; the static thrust mapping factor is 1 up to bypass ratio 1, and above it lies between 1 and 4/3, increasing.", "quantifier": "all positive parameters", "why_tests_cant": "continuum", "anchors": ["ADRpy/constraintanalysis.py: thrusttoweight_takeoff,twrequired_to,map2static"]}
{"id": "C50", "title": "Power and thrust requirements agree", "statement": "The power requirement is the thrust requirement times speed over propulsive efficiency times take-off mass, so the thrust requirement can be recovered from it; halving the efficiency doubles the power.", "quantifier": "all parameters", "why_tests_cant": "continuum", "anchors": ["ADRpy/constraintanalysis.py: powerrequired,tw2pw", "ADRpy/unitconversions.py: wn2hpkg"]}
{"id": "C51", "title": "Sea-level mapping of power", "statement": "Selecting the sea-level mapping in the power requirement converts power at altitude to sea-level equivalent for a generic piston engine. (False: for every generic propulsion string the mapping changes nothing.)", "quantifier": "all altitudes and designs with a generic propulsion string", "why_tests_cant": "compares two runs over all altitudes", "anchors": ["ADRpy/constraintanalysis.py: powerrequired,_propulsion_slcorr"]}
{"id": "C52", "title": "Stall speed and stall-limited wing loading agree", "statement": "In the standard atmosphere the wing loading limit for a clean stall speed and the stall speed at this wing loading are inverse up to the knots drift; the smallest wing area for a mass carries exactly the limit wing loading.", "quantifier": "all stall speeds, lift coefficients and masses", "why_tests_cant": "continuum", "anchors": ["ADRpy/constraintanalysis.py: vstall_kias,wsmaxcleanstall_pa,smincleanstall_m2"]}
{"id": "C53", "title": "Wing-in-ground factor", "statement": "The factor lies in [0,1), is zero exactly at zero height, strictly increasing in height, and within 0.4 percent of 1 above one span.", "quantifier": "all heights", "why_tests_cant": "continuum", "anchors": ["ADRpy/constraintanalysis.py: _wig,wigfactor"]}
{"id": "C54", "title": "Sensitivity study evaluates the extremes and reproduces the nominal requirement", "statement": "For each ranged parameter the study evaluates the concepts with this parameter at its largest and smallest listed value and all others nominal; the relative sensitivities shown at a wing loading where some recorded sensitivity is nonzero are non-negative and sum to 1; a parameter is recorded when its effect is nonzero at any wing loading (false: it must be nonzero at every one); the nominal curve equals the requirement of the concept itself (false when no propulsion argument was given: the study then applies no sea-level correction).", "quantifier": "all design spaces and wing loading arrays", "why_tests_cant": "arrays of any length", "anchors": ["ADRpy/constraintanalysis.py: propulsionsensitivity_monothetic,AircraftConcept.__init__,_propulsion_slcorr"]}
{"id": "C55", "title": "CS-23 limit manoeuvre load factors", "statement": "The normal and commuter category positive limit load factor lies in (2.1, 3.8], falls with weight, and is 3.8 exactly up to 4117.6 lbf; the negative limit is -0.4 (normal, utility, commuter) or -0.5 (aerobatic) times the positive one of the same category. (False for utility and aerobatic: the normal category value is used.)", "quantifier": "all weights and categories", "why_tests_cant": "continuum of weights", "anchors": ["ADRpy/airworthiness.py: _paragraph337"]}
{"id": "C56", "title": "CS-23 gust velocities", "statement": "The derived gust velocities are the sea-level values up to 20000 ft, fall linearly to 50000 ft and stay constant above; they are positive, non-increasing with altitude, and ordered Ub > Uc > Ud with Ud = Uc/2 at every altitude.", "quantifier": "all altitudes", "why_tests_cant": "all altitudes including both clamped ends", "anchors": ["ADRpy/airworthiness.py: _paragraph333"]}
{"id": "C57", "title": "CS-23 gust load factors", "statement": "Positive and negative gust load factors are symmetric about 1, the alleviation factor lies in (0,0.88), the increment is proportional to gust velocity and airspeed, and decreases with wing loading.", "quantifier": "all positive parameters", "why_tests_cant": "continuum", "anchors": ["ADRpy/airworthiness.py: _paragraph341"]}
{"id": "C58", "title": "CS-23 design speeds", "statement": "The dive speed used for the envelope is at least 1.25 times the cruise speed used for it, for every category and every user supplied cruise and dive speed; the used cruise speed is at least the regulatory minimum.", "quantifier": "all wing loadings, categories and user speeds", "why_tests_cant": "continuum, and both cases of each max", "anchors": ["ADRpy/airworthiness.py: _paragraph335,flightenvelope"]}
{"id": "C59", "title": "V-n diagram corner points lie on their curves", "statement": "Point A is where the positive stall curve meets the positive manoeuvre limit, point B is where the stall curve meets the gust line, point G is on the negative stall curve; the stall curve at level-flight stall speed gives the load factor one over the weight fraction (up to the knots drift).", "quantifier": "all designs", "why_tests_cant": "continuum", "anchors": ["ADRpy/airworthiness.py: flightenvelope,vs_keas,_paragraph335"]}
{"id": "C60", "title": "Envelope ordering", "statement": "Every point of the positive boundary between cruise and dive speed is at least the manoeuvre limit, every point of the negative boundary between dive and cruise speed is at most the manoeuvre limit of point E, and the sampled speeds run monotonically from one end to the other, including both ends.", "quantifier": "all designs and every sample point", "why_tests_cant": "every sample and every design", "anchors": ["ADRpy/airworthiness.py: flightenvelope"]}
{"id": "C61", "title": "Certification object uses the given propulsion", "statement": "The propulsion argument given to the certification object reaches the aircraft concept inside it. (False: it is dropped.) The cs brief given by the caller is filled with defaults in place.", "quantifier": "all propulsion arguments and briefs", "why_tests_cant": "all arguments", "anchors": ["ADRpy/airworthiness.py: CertificationSpecifications.__init__"]}
{"id": "C62", "title": "Unknown engines are rejected", "statement": "Creating an engine deck for a name with no data raises NameError. (False: the check never fires.)", "quantifier": "all engine names and directory contents", "why_tests_cant": "all names", "anchors": ["ADRpy/propulsion.py: _setup"]}
{"id": "C63", "title": "Engine data selection does not depend on directory order", "statement": "Which data file is loaded for a role does not depend on the order in which the operating system lists the directory. (False for a piston engine with a best-power file, and in general when two files of the engine match one role.) True whenever at most one of the engine's files matches each role.", "quantifier": "all directory contents and listing orders", "why_tests_cant": "order of listing is decided by the operating system", "anchors": ["ADRpy/propulsion.py: _setup,PistonDeck,ElectricDeck"]}
{"id": "C64", "title": "Electric motor shaft power equals angular speed times torque", "statement": "Shaft power reported for a speed in rpm and a torque is 2*pi*rpm/60*torque, in agreement with the map used for efficiency. (False: the function returns half of it.)", "quantifier": "all speeds and torques", "why_tests_cant": "continuum", "anchors": ["ADRpy/propulsion.py: ElectricDeck.shaftpower,ElectricDeck.__init__"]}
{"id": "C65", "title": "Polynomial thrust fits are only evaluated in their range", "statement": "The sea-level thrust of a jet deck at a Mach number is the fitted polynomial inside the stated limits, both included, and None outside; a list is rejected or accepted as documented.", "quantifier": "all Mach numbers, polynomials and limits", "why_tests_cant": "all values including end points", "anchors": ["ADRpy/propulsion.py: _poly,_poly_process,JetDeck"]}
{"id": "C66", "title": "Local data query", "statement": "Asking for local data with an unknown engine type raises LookupError; with a known type exactly the data files whose name contains the engine name are listed under it.", "quantifier": "all strings", "why_tests_cant": "all strings", "anchors": ["ADRpy/propulsion.py: local_data"]}
{"id": "C67", "title": "Generic propeller normalisation", "statement": "Blade count times blade activity factor equals the total activity factor, the blade count is an integer of at least two nearest to its recommendation (ties to the even one), the solidity formula is consistent with both, and the design lift coefficient is the one at which the blade area carries the thrust.", "quantifier": "all inputs", "why_tests_cant": "continuum", "anchors": ["ADRpy/propulsion.py: PropellerDeck.ansatzprop"]}
{"id": "C68", "title": "Propeller efficiency iteration terminates", "statement": "The efficiency solver stops after at most the configured number of iterations, for all inputs; its value is the first estimate that agrees with its predecessor in the configured decimals, or the last permitted one; and its result depends on earlier calls only through the documented cached solidity. Values agree in d decimals when they round to the same nearest multiple (ties to even); without other settings d is six and the bound thirty, and settings of another kind are a TypeError.", "quantifier": "all inputs and call histories", "why_tests_cant": "any history of calls", "anchors": ["ADRpy/propulsion.py: PropellerDeck.efficiency"]}
{"id": "C69", "title": "Best climb speed minimises power", "statement": "The best climb speed of a propeller aircraft at a wing loading and altitude is the unique true airspeed that minimises drag power in level flight for the parabolic drag polar with the concept's zero-lift drag and induced drag factor.", "quantifier": "all positive wing loadings, densities, drag coefficients and all speeds compared", "why_tests_cant": "compares with every other speed", "anchors": ["ADRpy/constraintanalysis.py: bestclimbspeedprop"]}
{"id": "C70", "title": "Turn radius from bank angle", "statement": "For bank angles strictly between 0 and 90 degrees the turn radius is positive, decreases with bank angle, grows with the square of the speed, and gives a centripetal acceleration of g*tan(bank), i.e. the load factor 1/cos(bank).", "quantifier": "all bank angles and turn speeds", "why_tests_cant": "continuum", "anchors": ["ADRpy/constraintanalysis.py: bank2turnradius"]}
{"id": "C71", "title": "Lift slope blending", "statement": "At Mach 0.6 and below the lift slope is the subsonic estimate, at Mach 1.4 and above the supersonic estimate, between 0.8 and 1.3 the transonic interpolant alone, and in the two blending ranges it lies between the estimates being blended; there is no jump in the blending weights at any of the four thresholds.", "quantifier": "all Mach numbers >= 0, all subsonic, supersonic and transonic estimates", "why_tests_cant": "all Mach numbers including the thresholds", "anchors": ["ADRpy/constraintanalysis.py: liftslope_prad"]}
{"id": "C72", "title": "Subsonic and supersonic lift slope estimates are positive", "statement": "For subsonic Mach numbers, positive aspect ratio and section lift slope, and sweeps below 90 degrees, each of the seven subsonic estimates, and hence their mean, is positive and at most the two-dimensional lift slope over the Prandtl-Glauert factor; the supersonic estimates are positive when the aspect ratio times sqrt(M^2-1) exceeds one half, and the last of them is not positive otherwise.", "quantifier": "all parameters in range", "why_tests_cant": "continuum", "anchors": ["ADRpy/constraintanalysis.py: liftslope_prad"]}
{"id": "C73", "title": "Leading-edge suction blending", "statement": "The full-suction induced drag factor is 1/(pi*AR) below Mach 1, joins it at Mach 1 with zero slope, reaches the zero-suction value at the sonic leading edge Mach number, and stays between the two in between.", "quantifier": "all aspect ratios, sweeps and Mach numbers", "why_tests_cant": "continuum, joins at both ends", "anchors": ["ADRpy/constraintanalysis.py: induceddragfact_lesm"]}
{"id": "C74", "title": "Mean chords", "statement": "The standard mean chord is at most the mean aerodynamic chord, with equality exactly for an untapered wing; the standard mean chord times the span recovers the wing area.", "quantifier": "all areas, aspect ratios and taper ratios", "why_tests_cant": "continuum", "anchors": ["ADRpy/airworthiness.py: _meanchord_m"]}
{"id": "C75", "title": "Envelope stall speeds", "statement": "The stall speed at a load factor grows with the square root of the load factor, is the speed at which the maximum (or, inverted, minimum) lift coefficient supports that load, and missing weight, area or the lift coefficient of the relevant sign raise ValueError.", "quantifier": "all load factors of both signs, all designs", "why_tests_cant": "continuum and all missing-item combinations", "anchors": ["ADRpy/airworthiness.py: vs_keas"]}
{"id": "C76", "title": "Jet deck correction does not exceed one", "statement": "Whenever the interpolated thrust does not exceed the largest tabulated thrust the sea-level correction of a jet deck lies at or below 1 and dividing by it never reduces the requirement; the largest tabulated point itself has correction 1.", "quantifier": "all tables and queries", "why_tests_cant": "all tables", "anchors": ["ADRpy/propulsion.py: JetDeck.sl_thrustcorr,TurbopropDeck.sl_powercorr,PistonDeck.sl_powercorr"]}
{"id": "C77", "title": "Piston fuel consumption uses the engine speed", "statement": "The thrust-specific fuel consumption of a piston deck at an engine speed is computed from the shaft power at this engine speed. (False: the shaft power is looked up with the Mach number in place of the speed.)", "quantifier": "all tables, Mach numbers and speeds", "why_tests_cant": "any deck contents", "anchors": ["ADRpy/propulsion.py: PistonDeck.tsfc,PistonDeck.thrust,PistonDeck.shaftpower"]}
{"id": "C78", "title": "Propeller efficiency accepts scalars with arrays", "statement": "The documentation allows Mach number and altitude to be single values with an array of shaft powers. (False: an IndexError is raised for every array of two or more powers.) With arrays of the same length the result has that length and each element depends only on the inputs at its own position.", "quantifier": "all array lengths and contents", "why_tests_cant": "arrays of any length", "anchors": ["ADRpy/propulsion.py: PropellerDeck.efficiency"]}
{"id": "C79", "title": "Deck availability checks", "statement": "A deck query without the needed data returns None with a warning; with the data it returns the interpolated value. (False for derived quantities: the corrections raise AttributeError and the electric specific consumption TypeError.) The demonstration plots' own availability checks never fire for turboprop decks. The specific consumption of an electric deck with its data is the inverse of the efficiency. The plots of piston fuel consumption, of motor efficiency and of jet decks do check: they give the warning exactly when the table is missing. (False for the total thrust of a turboprop: without a table of the hot thrust it raises TypeError.)", "quantifier": "all deck contents", "why_tests_cant": "all availability combinations", "anchors": ["ADRpy/propulsion.py: JetDeck,TurbopropDeck,PistonDeck,ElectricDeck"]}
{"id": "C80", "title": "Wing loading array results are computed point by point", "statement": "Each element of a requirement array depends only on the wing loading at its position: evaluating an array and evaluating its elements one by one gives the same numbers, whatever the length and order of the array.", "quantifier": "arrays of any length", "why_tests_cant": "arrays of any length", "anchors": ["ADRpy/constraintanalysis.py: twrequired_to,twrequired_trn,twrequired_clm,twrequired_crs,twrequired_sec,twrequired"]}
{"id": "C81", "title": "METAR date repair", "statement": "When a report cannot be decoded as it is, the second attempt replaces exactly characters 4..6 by ' 28' and keeps the station code and everything from character 7 on.", "quantifier": "all report strings and all decoders", "why_tests_cant": "any string and any decoder behaviour", "anchors": ["ADRpy/weathertools.py: decodemetar"]}
{"id": "C82", "title": "Conversion factors have the right size", "statement": "Every conversion function multiplies by the internationally defined factor up to a relative error of 1e-5 (feet, knots, nautical miles, pounds, pound-force, horsepower, inches of mercury, pounds per square foot, slugs per cubic foot).", "quantifier": "all real inputs", "why_tests_cant": "a wrong digit in a rarely used factor stays inside the tolerance of a sample test; the statement is about every input", "anchors": ["ADRpy/unitconversions.py"]}
{"id": "C83", "title": "Speed of sound in knots for arrays", "statement": "The speed of sound in knots is documented to accept several altitudes like the metric version. (False: every list of two or more altitudes raises a TypeError.) For a single altitude it is the metric value converted.", "quantifier": "all altitudes, all lists, all atmospheres", "why_tests_cant": "lists of any length", "anchors": ["ADRpy/atmospheres.py: Atmosphere.vsound_kts"]}
{"id": "C84", "title": "A range of take-off weights shows its sensitivity", "statement": "In the power sensitivity study a take-off weight given as a range is shown with its effect, as the required power is proportional to the weight. (False: it is never recorded, because the mass is taken from the nominal weight in every evaluation.) The required power at every wing loading is proportional to the mass handed over.", "quantifier": "all design spaces with a ranged weight, all wing loading arrays, thrust and power", "why_tests_cant": "all design spaces and arrays of any length", "anchors": ["ADRpy/constraintanalysis.py: propulsionsensitivity_monothetic,powerrequired"]}
{"id": "C85", "title": "The sensitivity study completes", "statement": "The study completes whenever two or more wing loadings are given and every evaluation at the nominal and extreme values completes, for up to 24 ranged parameters. It cannot show more than 24 parameters, since each takes its own colour from a list of 24.", "quantifier": "all design spaces, propulsion systems and wing loading arrays", "why_tests_cant": "any number of parameters and wing loadings", "anchors": ["ADRpy/constraintanalysis.py: propulsionsensitivity_monothetic"]}
{"id": "C86", "title": "Gust loads at reduced weight", "statement": "The gust load factors used for the envelope are those of the CS-23.341 formula for the wing loading at the actual weight. (False unless the weight fraction is 1: the increment is divided by the weight fraction once more.)", "quantifier": "all designs, weight fractions, categories and gusts", "why_tests_cant": "continuum; the reference values in tests use weight fraction 1", "anchors": ["ADRpy/airworthiness.py: _paragraph341"]}
{"id": "C87", "title": "Negative corner at cruise speed", "statement": "The envelope at the cruise speed reaches down to the negative manoeuvre limit whenever the wing can produce that load (point F of CS-23.333(d)). (False: point F takes the larger of gust and stall load, capped by the limit of point E only, so that the two curves meeting there have different loads.)", "quantifier": "all designs", "why_tests_cant": "depends on which of four loads is the largest", "anchors": ["ADRpy/airworthiness.py: flightenvelope"]}
{"id": "C88", "title": "Envelope within the stall limits", "statement": "No point of the positive boundary up to the cruise speed lies above the stall curve of the design, and no point of the negative boundary between cruise and inverted stall speed lies below the negative stall curve.", "quantifier": "all designs and every sample point", "why_tests_cant": "every sample and every design", "anchors": ["ADRpy/airworthiness.py: flightenvelope"]}
{"id": "C89", "title": "A deck uses only data of the named engine", "statement": "Creating a deck for an engine uses no data of another engine. (False: files are matched by substring, so JetDeck(\"TFE731\") mixes tables of TFE731-2 and TFE731-5.) Files whose name does not contain the engine name have no influence.", "quantifier": "all directory contents and engine names", "why_tests_cant": "all directory contents", "anchors": ["ADRpy/propulsion.py: _setup"]}
{"id": "C90", "title": "Correction is relative to sea-level static thrust", "statement": "Multiplying the sea-level static thrust by the sea-level correction gives the thrust at the condition. (False: the reference is the maximum of the whole table; the result at sea level and rest is too small whenever some tabulated thrust is larger.) True when the sea-level static thrust is the largest tabulated value.", "quantifier": "all tables and conditions", "why_tests_cant": "all tables", "anchors": ["ADRpy/propulsion.py: JetDeck.sl_thrustcorr"]}
{"id": "C91", "title": "Queries outside the data give NaN", "statement": "A point outside the tabulated data gives NaN for this point and leaves the others alone. (False with the default propeller: one NaN shaft power makes the whole query raise ValueError.) With a given propeller the efficiency is NaN exactly where the power is.", "quantifier": "all tables, queries and array lengths", "why_tests_cant": "any position of the point outside the data", "anchors": ["ADRpy/propulsion.py: PropellerDeck.ansatzprop,PropellerDeck.efficiency,TurbopropDeck.coldthrust"]}
{"id": "C92", "title": "Generic propeller respects its tip Mach limit", "statement": "The generic propeller has a helical tip Mach number of at most 0.8. (False: the diameter is computed with half the circumference, so that the limit is exceeded at every Mach number below 0.8 for all large enough powers.) It never exceeds 1.6 for flight Mach numbers up to 0.8.", "quantifier": "all Mach numbers, altitudes, speeds and powers", "why_tests_cant": "continuum", "anchors": ["ADRpy/propulsion.py: PropellerDeck.ansatzprop"]}
{"id": "C93", "title": "Propeller efficiency does not exceed one", "statement": "The efficiency returned for a propeller does not exceed 1. (False: at low advance ratio the iteration alternates between negative values and values above 1, and returns the latter after any even number of turns.) A round that starts from a non-negative induced efficiency with a profile efficiency between 0 and 1 does not exceed 1.", "quantifier": "all propellers and conditions", "why_tests_cant": "continuum and number of turns", "anchors": ["ADRpy/propulsion.py: PropellerDeck.efficiency"]}
{"id": "C94", "title": "Blade data changes take effect", "statement": "Changing the blade count or activity factor of a propeller changes its efficiency accordingly. (False: the solidity computed in the first call is stored in the object and used from then on.)", "quantifier": "all propellers, values and calls", "why_tests_cant": "history of calls", "anchors": ["ADRpy/propulsion.py: PropellerDeck.efficiency"]}
{"id": "C95", "title": "Fuel flow from thrust and from power agree", "statement": "At a flight condition the thrust-specific consumption times thrust of a turboprop deck equals brake-specific consumption times shaft power. True for the propeller thrust. (False for the total thrust, which includes the exhaust thrust.)", "quantifier": "all decks, conditions and propellers", "why_tests_cant": "all tables and propellers", "anchors": ["ADRpy/propulsion.py: TurbopropDeck.tsfc,TurbopropDeck.coldthrust,TurbopropDeck.thrust"]}
{"id": "C96", "title": "Blade drag is positive", "statement": "The blade drag coefficient of the efficiency model is positive, so that the profile efficiency stays below 1. (False: it is negative when lift coefficient times power coefficient over advance ratio exceeds 0.904, and the profile efficiency is then above 1.) True from 0 to 0.9.", "quantifier": "all coefficients", "why_tests_cant": "continuum", "anchors": ["ADRpy/propulsion.py: PropellerDeck.efficiency"]}
{"id": "C97", "title": "Shading of the combined chart", "statement": "In the combined chart of the sensitivity study, the shaded region covers exactly the infeasible wing loadings (turn above the clean lift coefficient) and those from the clean stall limit on, the same on the wing loading axis and on the wing area axis; the front drawn outside it consists of feasible points whose value is the largest of the five requirements; the line of the turn stall limit stands at the largest feasible wing loading and that of the clean stall at the clean stall limit, each only if strictly inside the axis. (False: the largest feasible wing loading is also always shaded, even if every wing loading is feasible. True with this addition.)", "quantifier": "all concepts, increasing lists of positive wing loadings, both axes", "why_tests_cant": "all concepts and lists of wing loadings", "anchors": ["ADRpy/constraintanalysis.py: AircraftConcept.propulsionsensitivity_monothetic, lines 2030-2122, 2182-2257"]}
{"id": "C98", "title": "Focus masks of the single constraint charts", "statement": "With masks requested, the masked part of the chart of a constraint is exactly where the constraint is below the combined requirement (extended over the infeasible wing loadings when it is below at the last feasible one), and the charts can be drawn. (False: a constraint that is nowhere below the combined requirement, for example because no wing loading is feasible, makes the call end in a ValueError.)", "quantifier": "all concepts, increasing lists of positive wing loadings, both axes", "why_tests_cant": "all concepts and lists of wing loadings", "anchors": ["ADRpy/constraintanalysis.py: AircraftConcept.propulsionsensitivity_monothetic, lines 2030-2122, 2182-2257"]}
{"id": "C99", "title": "Vertical limit of the sensitivity charts", "statement": "The default upper limit of the vertical axis is 1.05 times the largest nominal requirement, so that all nominal curves and the combined front lie inside the chart as soon as one requirement is not negative; a limit given by the user is used unchanged.", "quantifier": "all concepts and wing loadings", "why_tests_cant": "all concepts and wing loadings", "anchors": ["ADRpy/constraintanalysis.py: AircraftConcept.propulsionsensitivity_monothetic, lines 2030-2122, 2182-2257"]}
{"id": "C100", "title": "Induced drag factor by leading edge suction", "statement": "The induced drag factor of the leading edge suction method is a weighted mean of the Oswald factor (weight 1 at rest, its fifth power falling linearly to 0 at the Mach number of a sonic leading edge), the full suction factor and the zero suction factor (one over the lift slope). The suction is 92 to 94 % at the cruise lift coefficient, and between 0 and 94 % for lift coefficients from 0.34 below to 1 above it, so that the factor lies between the least and the greatest of the three. A missing lift coefficient means the cruise lift coefficient, a missing Mach number 0.3, a missing wing loading take-off weight over wing area; without these a ValueError is raised. (False further away: the suction becomes negative, and the factor then exceeds even the one without any suction.)", "quantifier": "all concepts, wing loadings, lift coefficients and Mach numbers", "why_tests_cant": "all concepts and flight conditions, over the reals", "anchors": ["ADRpy/constraintanalysis.py: AircraftConcept.induceddragfact_lesm, lines 889-1018"]}
{"id": "C101", "title": "Requirements are force balances", "statement": "Each thrust requirement times the take-off weight is the thrust of a force balance on the aircraft at the weight of that mission point, independently of wing area: steady climb at the sine given by indicated climb rate over indicated speed, level cruise at the given throttle, a climb at 100 ft/min at the service ceiling with lift taken equal to weight (on the safe side by the induced drag times the squared sine), the sustained turn with lift equal to load factor times weight (when the climb weight fraction is 1), and the ground roll at the average speed. The last one is exact when the lift at lift-off speed and CLTO equals the weight or CDTO/CLTO equals the rolling friction; otherwise it differs by half of (1 - 1.21 CLTO/CLmaxTO)(CDTO/CLTO - mu) of the weight.", "quantifier": "all concepts, positive wing loadings, weight fractions and dynamic pressures, with and without mapping to sea level", "why_tests_cant": "all concepts, atmospheres and wing loadings", "anchors": ["ADRpy/constraintanalysis.py: AircraftConcept.twrequired_clm, twrequired_crs, twrequired_sec, thrusttoweight_takeoff, twrequired_to, thrusttoweight_sustainedturn, twrequired_trn, lines 1144-1650"]}
{"id": "C102", "title": "The ISA is the standard atmosphere in hydrostatic equilibrium", "statement": "At sea level the ISA has 288.15 K, 101325 Pa and 1.225 kg/m3 (to 2e-7), and inside each layer the pressure falls with altitude at the rate standard gravity times density (to 4e-7), so that the pressure difference of two altitudes of a layer is the weight of the air column between them.", "quantifier": "all altitudes from -5 km inside a layer", "why_tests_cant": "a derivative identity at every altitude", "anchors": ["ADRpy/atmospheres.py: lines 372-430, 499-518, 543-589"]}
{"id": "C103", "title": "Each requirement depends on its own items", "statement": "The requirement of a condition does not change with the items of the other conditions: the climb requirement not with the items of take-off, turn and service ceiling, the cruise requirement not with those of climb, take-off, turn and ceiling, the ceiling requirement not with those of climb, take-off and turn, the turn requirement not with those of take-off and ceiling nor with climb altitude, speed and rate, the take-off requirement not with any item of the flight conditions, the clean drag or the wing's geometry. (False in general: the suction of the wing is that of a wing designed for the cruise lift coefficient, so that for every climb condition with drag due to lift there are two cruise speeds with different climb requirements.)", "quantifier": "all concepts, wing loadings, values of the other items, with and without mapping to sea level", "why_tests_cant": "independence of every value of about twenty items at once", "anchors": ["ADRpy/constraintanalysis.py: AircraftConcept.twrequired_clm, twrequired_crs, twrequired_sec, twrequired_to, twrequired_trn, induceddragfact_lesm, lines 889-1650"]}
{"id": "C104", "title": "What drag and lift coefficients cost", "statement": "Raising the clean minimum drag coefficient raises each of the climb, cruise, ceiling and turn requirements by exactly the added drag over the take-off weight (dynamic pressure times the increment over the take-off wing loading), divided by the thrust correction when mapped to sea level and by the cruise thrust fraction in cruise, and does not change the turn's lift coefficient nor its feasibility. At take-off, more ground drag or rolling friction adds half of drag over lift and half of the friction coefficient, times the static mapping, and leaves the lift-off speed as it is; a higher maximum lift coefficient lowers the requirement and the lift-off speed, whose square is inversely proportional to it.", "quantifier": "all concepts, coefficients and wing loadings", "why_tests_cant": "an exact law over all real values of the coefficients", "anchors": ["ADRpy/constraintanalysis.py: AircraftConcept.twrequired_clm, twrequired_crs, twrequired_sec, twrequired_to, twrequired_trn, lines 1020-1650"]}
{"id": "C105", "title": "What a tighter turn costs", "statement": "Below Mach one the lift slope of every wing is less than pi times its aspect ratio, so that losing leading edge suction costs drag; from the cruise lift coefficient to one above it the induced drag factor never falls as the lift coefficient rises. A tighter turn at the same speed and altitude therefore needs strictly more thrust: the lift coefficient is proportional to the load factor and the part of the requirement due to lift grows at least with its square.", "quantifier": "all wings of subsonic aircraft, lift coefficients, load factors and wing loadings, with and without mapping to sea level", "why_tests_cant": "a trend over all real load factors through two blended suction curves and a mean of seven lift slope formulas", "anchors": ["ADRpy/constraintanalysis.py: AircraftConcept.induceddragfact_lesm, twrequired_trn, lines 889-1650"]}
{"id": "C106", "title": "Hot and high take-off", "statement": "On a hotter day or from a higher runway the take-off requirement and the lift-off speed are strictly greater: the square of the lift-off speed and the part of the requirement that accelerates the aircraft are inversely proportional to the air density, the part due to drag and friction stays. With a piston engine the requirement mapped to sea level grows by a greater factor still, being the former divided by 1.132 of the density ratio less 0.132, as long as that is positive.", "quantifier": "all concepts, temperature offsets from -100, runway elevations below 20 km and positive wing loadings", "why_tests_cant": "a trend over all real offsets and elevations through the layered atmosphere", "anchors": ["ADRpy/constraintanalysis.py: AircraftConcept.twrequired_to, lines 1429-1540", "ADRpy/atmospheres.py: pistonpowerfactor, _isadens_kgpm3"]}
{"id": "C107", "title": "Speed conversions of arrays", "statement": "Equivalent to true airspeed, true to equivalent, equivalent to calibrated airspeed and dynamic pressure accept an array of speeds at one altitude and convert each speed as if it were alone; dynamic pressure accepts an array of altitudes as well, the other conversions raise TypeError for several altitudes. (False: for a single speed the calibrated airspeed and the Mach number are documented as floats; keas2kcas returns one-element arrays.)", "quantifier": "all arrays of speeds, all altitudes up to 50 km, all temperature offsets with positive temperatures", "why_tests_cant": "arrays of any length and content", "anchors": ["ADRpy/atmospheres.py: Atmosphere.dynamicpressure_pa, eas2tas, tas2eas, mpseas2mpscas, keas2kcas, lines 690-838"]}
{"id": "C108", "title": "Lift slope of unswept wings", "statement": "For an unswept wing four of the subsonic lift slope estimates are Helmbold's formula and agree exactly; they and Kuchemann's estimate obey the Prandtl-Glauert similarity rule (the slope at a Mach number is that of the wing of aspect ratio contracted by sqrt(1-M^2), at rest, divided by the same factor). As the aspect ratio grows the estimates and their mean tend to the two-dimensional slope over sqrt(1-M^2); as it goes to zero the estimates, except that for delta wings, over the aspect ratio tend to pi/2, the slender wing of Jones.", "quantifier": "all subsonic Mach numbers, all aspect ratios and all airfoil slopes", "why_tests_cant": "agreement of formulas for all real arguments, and limits", "anchors": ["ADRpy/constraintanalysis.py: AircraftConcept.liftslope_prad, lines 675-887"]}
{"id": "C109", "title": "Supersonic lift slope and transonic peak", "statement": "The supersonic estimates are those of thin airfoil theory: the delta wing formula is that of linear theory when the Mach number normal to the leading edge is above one and the fit for subsonic leading edges otherwise; the two differ by less than 0.3 per cent at the sonic edge, and the slender one tends to Jones's slope as the Mach number falls to one. The supersonic slope strictly falls with the Mach number once the aspect ratio times sqrt(M^2-1) is at least one. The Mach number of the transonic peak follows the fit for wings of 5 per cent thickness, lies between 0.9 and 1.36, and falls with the aspect ratio up to four; 0.06 either side of it the slope is 95 per cent of pi/2 times the aspect ratio (from aspect ratio one).", "quantifier": "all concepts, all Mach numbers above one, all aspect ratios; any interpolant through the given points for the transonic part", "why_tests_cant": "monotonicity and limits over all real Mach numbers and aspect ratios", "anchors": ["ADRpy/constraintanalysis.py: AircraftConcept.liftslope_prad, lines 675-887"]}
{"id": "C110", "title": "Calibrated airspeed against the pitot equation", "statement": "A pitot tube moving at the calibrated airspeed at sea level sees the impact pressure of the flight at altitude: sea level pressure times ((1+0.2 (CAS/c0)^2)^3.5 - 1) equals pressure times ((1+0.2 M^2)^3.5 - 1) up to one per cent of the pressure times M^8 (plus three millionths of the pressure times M^2 from the rounded constants of the ISA), for the equivalent airspeed converted by mpseas2mpscas. The same holds in every atmosphere that follows the gas law.", "quantifier": "all equivalent airspeeds up to Mach one, altitudes from sea level to 50 km, all temperature offsets above -216.65; any observed atmosphere", "why_tests_cant": "an error bound for a truncated series over three real variables", "anchors": ["ADRpy/atmospheres.py: Atmosphere.mpseas2mpscas, lines 764-772"]}
{"id": "C111", "title": "Panel plots", "statement": "A flight data plot has one panel per list of column names, in order: the first name is the title on the y-axis and every further name a curve that shows exactly the rows of that column whose time lies in the closed time frame. Every panel shows every marker line with its own colour, and only the lowest panel names the time axis. A missing time column or data column raises KeyError, no panel ValueError, a single panel TypeError, too few colours IndexError. Panels side by side show the same vertical axis against their own horizontal one, with their own limits and labels, only the first names the vertical axis, and all horizontal lines run over the whole width.", "quantifier": "all data frames (with NaN), column names, time frames, numbers of panels, markers and colours", "why_tests_cant": "the plots are shown and not returned; the selection of rows ranges over all data", "anchors": ["ADRpy/mtools4acdc.py: panelplot_with_shared_y, lines 28-57", "ADRpy/mtools4acdc.py: panelplot_with_shared_x, lines 87-133", "ADRpy/mtools4acdc.py: fdrplot, lines 136-269"]}
{"id": "C112", "title": "Drawing of the V-n diagram", "statement": "A V-n diagram is drawn whenever the envelope exists. It has two lines per gust of the category, which show at every speed up to five times the design speed the load of that gust rising and sinking, and one annotation per gust whose arrow touches the rising line and whose speed is the gust speed rounded to two decimals. The legend lists every marked point with its speed rounded to one and its load rounded to two decimals. A mark is green exactly when its load is positive. The outline of the envelope is closed, runs out to VD on loads above zero and back on loads at or below zero without turning back, and passes through C, D, E and F. The manoeuvre envelope starts and ends at the origin and has the limit loads as corners. When both stall speeds are below VC (which holds for a lift coefficient of usual size), outline and marks B to F lie within the axes, and A and G exactly when their speeds are within 1.1 VD. (False: when VA exceeds VC the outline jumps at VC to a load beyond the one the wing can produce there, and A may fall outside the axes.)", "quantifier": "all concepts and categories for which the envelope is computed, all weight fractions, altitudes and lift coefficients", "why_tests_cant": "the diagram is shown and not returned, and its consistency with the design speeds, the gust loads and the limits ranges over all designs", "anchors": ["ADRpy/airworthiness.py: flightenvelope, lines 663-739 (outlines)", "ADRpy/airworthiness.py: flightenvelope, lines 755-886 (drawing)"]}
{"id": "C113", "title": "Demonstration plots of engine decks", "statement": "A demonstration plot of a deck with its table covers exactly the tabulated range of both columns with 1001 evenly spaced values each, shows at every grid point the value a query for that point would answer, is labelled with the names of the columns and titled after the engine. A table one of whose columns has no range (a single value) raises ValueError. (False: a blank in the first row of a column spoils the limits, so that the plot raises although queries answer; the shipped J52 fuel consumption table is such a table.)", "quantifier": "all directory contents and tables, all behaviours of the interpolation", "why_tests_cant": "a plot is shown and not returned, and its agreement with the query is for every table", "anchors": ["ADRpy/propulsion.py: _demo_plot", "ADRpy/propulsion.py: demoplot_thrust, demoplot_shaftpower, demoplot_bsfc, demoplot_efficiency, demoplot_tsfc"]}
{"id": "C114", "title": "Polynomial files", "statement": "A polynomial file is read as its characters say: the numbers of the first line are the coefficients in rising order, those of the second line the limits, blanks in the second line are padding, and neither a byte order mark nor the line ends of another system change the result. A blank coefficient or a field that is no number raises the error of that conversion, a file of a single line IndexError. Between the two limits a jet deck answers the sea level thrust with the value of that polynomial, outside with nothing.", "quantifier": "all file contents, all conversions of fields to numbers", "why_tests_cant": "all file contents", "anchors": ["ADRpy/propulsion.py: _poly_process", "ADRpy/propulsion.py: JetDeck.sl_thrust"]}
{"id": "C115", "title": "Printed list of engine data", "statement": "The printed list has one entry per row of the metadata file, in order, with its notes and reference (a dash for an empty one); it lists a description as often as there are files with the engine's name and the corresponding part in their name, and nothing else. An unknown engine type raises LookupError, a row that has not three fields ValueError. A table file spelt as in the package is both listed and found by the deck. (False in general: best power fuel consumption tables and sea level polynomials are used by the decks but not listed, take-off thrust tables are listed but used by no deck.)", "quantifier": "all directory contents, metadata files and engine types", "why_tests_cant": "printed and not returned; all directory contents", "anchors": ["ADRpy/propulsion.py: local_data, lines 64-121"]}
{"id": "C116", "title": "Arguments, charts and legends of the sensitivity study", "statement": "Arguments that are not supported are replaced by the documented defaults. show=True draws the five constraint charts and then the combined chart, the name of a chart draws that same chart alone, False and other texts draw nothing. The chart of a constraint has one layer for exactly those parameters given as ranges whose effect on the requirement vanishes at no wing loading, in the order of the dictionaries, under the user's label or else the name of the parameter; every parameter keeps one colour in all charts that no other parameter has; at every wing loading the layers are positive and add up to 1; a chart without layers is crossed out. The combined chart has one curve for each nominal requirement and one for the combined one. A limit for the vertical axis that is a number is used. (False: a numpy number other than 0 is ignored with a warning that it is no number. A single wing loading cannot be studied for the thrust to weight ratio.)", "quantifier": "all concepts, lists of wing loadings, arguments and labels", "why_tests_cant": "drawn and not returned; all designs, sets of ranges and arguments", "anchors": ["ADRpy/constraintanalysis.py: AircraftConcept.propulsionsensitivity_monothetic, lines 1835-2301"]}
{"id": "C117", "title": "Stored parameters without effect, and documented defaults", "statement": "Head wind, runway gradient, engine spool-up time, static thrust, runway angle of attack and its maximum, take-off drag and lift coefficients on the runway are stored with the given value or the documented default, and the slope angle belongs to the gradient (its tangent is the gradient in percent over 100, and it is below 90 degrees in size). Every scalar entry of the three dictionaries that is left out gets the documented default. (False: that these entries have an effect. Designs that differ only in them or in the take-off weight fraction give the same concept otherwise and the same requirements, and a range of one of them has zero effect, so that it never appears in the sensitivity study. The take-off weight fraction, documented to default to 1, is not stored.)", "quantifier": "all dictionaries, atmospheres, propulsion arguments and wing loadings", "why_tests_cant": "independence from a parameter is a statement over all its values and all other inputs", "anchors": ["ADRpy/constraintanalysis.py: AircraftConcept.__init__, lines 186-189, 448-451, 472-473, 484-488, 494"]}
{"id": "C118", "title": "Engine decks in the constraint analysis", "statement": "With an engine deck as propulsion argument, a turboprop deck corrects power and a jet deck thrust, at each Mach number relative to the largest tabulated value, with NaN outside the table; an electric motor corrects nothing; a deck without the needed table raises AttributeError. The correction of a piston deck is the power at the engine speed of greatest power relative to the largest power. (False: it is the power at the last speed considered, the lowest tabulated speed plus whole steps of one below the highest, whatever the powers are; that is the best speed only where power does not fall with speed. As the highest tabulated speed itself is left out, sea-level power is corrected too when the largest power is at the highest speed. A table with a single speed raises ValueError.)", "quantifier": "all decks, Mach numbers and altitudes", "why_tests_cant": "all tables and interpolants", "anchors": ["ADRpy/constraintanalysis.py: AircraftConcept._propulsion_slcorr, lines 1106-1130"]}
{"id": "C119", "title": "Reference and size of the sea level mapping", "statement": "The thrust and power factors are relative to sea level static conditions: at rest at sea level on a standard day, with throttle ratio at least one, those of the high bypass and the afterburning low bypass turbofan, the afterburning turbojet, the analytical turboprop and the piston engine are 1. The mapped requirement is the unmapped one divided by the factor. For a high bypass jet at Mach numbers up to one at 0 to 50 km in the standard atmosphere the factor is at most 1, so mapping never lowers the requirement. (False for others: the dry turbojet has 0.8 and an unknown jet type 0.6 at the reference, so a static requirement of a jet with bypass ratio zero is raised by a quarter, and by at least that up to Mach 0.3; the low bypass factor exceeds 1 at sea level at every Mach number other than zero below the theta break, and that of the dry turbojet at Mach 0.9 for throttle ratios from 1.2, so that mapping lowers the requirement.)", "quantifier": "all concepts, Mach numbers, throttle ratios and wing loadings", "why_tests_cant": "inequalities over all speeds, heights and throttle ratios", "anchors": ["ADRpy/atmospheres.py: turbofanthrustfactor, turbojetthrustfactor, turbopropthrustfactor_matt, pistonpowerfactor, lines 895-1027", "ADRpy/constraintanalysis.py: lines 1060-1099, 1262-1320"]}
{"id": "C120", "title": "Turboprop thrust table", "statement": "For every surface that passes through the tabulated values and is constant beyond the edges of the table, the turboprop thrust factor is 1 at sea level at rest, between 0.06 and 1 at the tabulated conditions, falls with Mach number at each tabulated density and rises with density up to Mach 0.2; the tabulated densities are those of the standard atmosphere at 0, 5000, ... 40000 ft; beyond the table it is the value at the nearest tabulated condition; the mapped cruise requirement is the unmapped one divided by it. (False: that it rises with density at all speeds. From Mach 0.3 on there is less thrust at sea level than at 5000 ft, at Mach 0.6 less than a third of that at 15000 ft; at sea level density and Mach 0.6 or more mapping multiplies the requirement by more than 13. Above 40000 ft the factor no longer falls with height.)", "quantifier": "all interpolating surfaces, density ratios, Mach numbers and concepts", "why_tests_cant": "all arguments, any interpolant", "anchors": ["ADRpy/atmospheres.py: turbopropthrustfactor, lines 963-990"]}
{"id": "C121", "title": "Kinds of failure", "statement": "Bad input is refused with ValueError: a speed of sound or Mach number below absolute zero, an empty list of altitudes in a standard atmosphere, speeds and altitudes or the two arguments of an engine table given as arrays of different lengths (neither one), any certification category but the four documented ones in the flight envelope and its drawing, a runway of the database without a readable length, width, elevation or heading, an observed profile with columns of different lengths or negative temperatures or with neither density nor pressure. A profile without temperatures, or without altitudes, is refused with TypeError. An observed profile with temperatures and pressures is complete. (False for a single altitude: the missing density counts as a column of length one, and TypeError is raised.)", "quantifier": "all atmospheres, profiles, databases, briefs and decks", "why_tests_cant": "all malformed inputs, of which a test has a few", "anchors": ["ADRpy/atmospheres.py: Obsprofile.__init__, Runway.__init__, Atmosphere.mach, vsound_mps, lines 133-175, 279-303, 592-672, 882-885", "ADRpy/airworthiness.py: flightenvelope, lines 565-570", "ADRpy/propulsion.py: lines 216-254, 636-645, 1057-1082, 1251-1259"]}
{"id": "C122", "title": "Mach number in the efficiency estimate", "statement": "The fourth efficiency estimate does not depend on the Mach number up to 0.3, which is also the default; above, the part 0.001521 (M/0.3 - 1)^10.82 is lost, exactly 0.1521 per cent at Mach 0.6; it never rises with Mach number; in the recommended range below 0.69 at most three per cent are lost; from Mach 0.85 on it is the floor 0.001 for every wing, so that selected by itself it gives a thousand times the ideal induced drag. In the constraint analysis, which caps the Mach number at 0.6, compressibility raises the factor of methods 2 and 4 by at most 0.16 per cent at any speed.", "quantifier": "all concepts with positive aspect ratio and all Mach numbers", "why_tests_cant": "monotonicity and bounds over all Mach numbers and wings", "anchors": ["ADRpy/constraintanalysis.py: AircraftConcept.oswaldspaneff4, induceddragfact, lines 525-640, 952"]}
{"id": "C123", "title": "Pressure and density altitude on days off standard", "statement": "The pressure does not depend on the temperature offset, so on any day the pressure altitude function returns the altitude argument to 0.1 m: that argument is a pressure altitude. The density altitude below 11 km, as long as it stays below 11 km, differs from the altitude by 36.15 m (118.6 ft) per degree of offset times a factor between 1 and the ratio of standard to actual temperature; by 29.27 m per degree from 11 to 20 km; it lies above the altitude exactly on hot days, below exactly on cold days, and rises strictly with the offset. The pressure gradient is gravity times density times the ratio of actual to standard temperature, to four parts in ten million. (False: that the density altitude function inverts the density of the same object. It does not adjust for the offset, and below 11 km returns the altitude only for offset zero. False: that an atmosphere off standard is in hydrostatic equilibrium over its altitude argument. The pressure falls too fast on hot days and too slowly on cold ones.)", "quantifier": "all offsets and altitudes", "why_tests_cant": "bounds over all temperatures and altitudes, derivative", "anchors": ["ADRpy/atmospheres.py: _isatemp_k, _isapress_pa, _isapressalt_m, _isadens_kgpm3, _isadensalt_m, lines 475-590"]}
{"id": "C124", "title": "Requirements between the ends of a range", "statement": "The sensitivity study evaluates a parameter only at the ends of its range and takes the difference as its effect. For the clean drag coefficient the climb, cruise, ceiling and turn requirements inside the range are the linear interpolation of those at the ends, with or without the mapping to sea level, so the ends bound them. For the ground run the take-off requirement (not mapped) lies strictly between the ends and below their linear interpolation; lift-off speed does not change. (False: that the ends bound the requirement for every parameter. For every aircraft with a wing in the range of the lift slope estimates and every cruise speed below Mach 0.6 there are a lower speed and a wing loading for which the cruise requirement at the mean of the two speeds is below that at both ends, and the difference of the ends is smaller than the drop to the mean: the reported effect understates the spread.)", "quantifier": "all concepts, ranges, positions inside the range and wing loadings", "why_tests_cant": "universal over designs and interior points; existence of the wing loading for every speed", "anchors": ["ADRpy/constraintanalysis.py: propulsionsensitivity_monothetic, lines 1835-2301", "ADRpy/constraintanalysis.py: twrequired_clm, twrequired_crs, twrequired_sec, twrequired_to, twrequired_trn, lines 1144-1665"]}
{"id": "C125", "title": "The documented examples", "statement": "In exact arithmetic the functions return the numbers printed in the examples of the documentation, to the last printed digit, for: the atmosphere at four altitudes, the constructor's temperature offset, dynamic pressure, equivalent and calibrated airspeeds, wind components, the take-off requirement with lift-off speed and lift coefficient, the ground effect factor, the lift coefficients of the turn and which of them is infeasible, and the take-off thrust of the JT8D-9. (False: for the climb example, where all three documented thrust to weight ratios exceed those the code returns; for the thrust to weight ratio of the turn example; for the sea level thrust of the JT8D-9, which is off by three millionths of a newton.)", "quantifier": "all external interpolators and decks with the named polynomials; examples as documented", "why_tests_cant": "a test compares with rounded arithmetic on one platform; here the printed digits are shown to be those of the exact formulas, and the disagreements independent of rounding and of the interpolators", "anchors": ["ADRpy/atmospheres.py: examples, lines 228-253, 332-356, 605-616, 704-724, 774-830", "ADRpy/constraintanalysis.py: examples, lines 1182-1211, 1463-1486, 1590-1627, 2418-2440", "ADRpy/propulsion.py: examples, lines 1353-1361, 1390-1400"]}
{"id": "C126", "title": "The runway database that comes with the code", "statement": "In the file data/runways.csv the rows of every airport stand next to each other, so the assumption of C10 holds: for every ICAO code and number, a runway object built from the file has the attributes of the row with that number among the rows of that airport, and nrways is the number of its rows (six for KDEN, as documented). A runway can be built exactly if none of its length, width, elevations and headings is missing. (False: that the runways of the file can be used. Missing displaced thresholds are handled, missing elevations, headings, widths and lengths are not: 30064 of the 40489 runways raise ValueError, and so does the default call for 26977 of the 34113 airports, with the same exception as for a number out of range.)", "quantifier": "all codes, numbers, and tables with the airport column and the missing entries of the file; all readers of numbers that reject the empty string", "why_tests_cant": "universal over codes and over the contents of all other columns; adjacency of the rows of all airports", "anchors": ["ADRpy/atmospheres.py: Runway.__init__, lines 130-204", "ADRpy/data/runways.csv"]}
{"id": "C127", "title": "Unit conversions in floating point", "statement": "When every operation is rounded (relative error at most u, order kept; binary64 with u = 2^-53 is one such arithmetic), each conversion computes its exact formula up to three units of rounding (six for those with several steps), keeps the order of its arguments, and there and back returns the argument up to three units (five for kelvin and rankine); knots up to the 1e-7 of the truncated factors; temperatures with offsets up to u(3|x| + 274), u(9|x| + 1700) and u(9|x| + 3000). (False: that there and back is exact: in binary64 7 ft become less than 7 ft, 1001 m less than 1001 m, and a temperature within 2^-45 degrees of 0 degrees Celsius comes back from kelvin as 0.)", "quantifier": "all real arguments and all roundings with relative error u < 1e-6", "why_tests_cant": "universal over all numbers and roundings; exact there and back holds for most arguments a test would take", "anchors": ["ADRpy/unitconversions.py, lines 19-182"]}
{"id": "C128", "title": "Constraint formulas in floating point", "statement": "With every operation rounded, and a power function within one unit in the last place, the cruise, climb (climb angle up to 45 degrees), service ceiling, take-off and turn requirements of one wing loading, the lift-off speed, the wing-in-ground factor, the power from the thrust requirement and the airspeed conversions are within a stated small number of units of rounding of the exact formulas (between 6 and 78 units, plus a multiple of the number j of roundings already in the density, induced drag factor and thrust correction). Whether a turn counts as possible is decided as by the exact formula unless the lift coefficient is within j + 14 units of the limit.", "quantifier": "all positive arguments, all roundings with relative error u < 1e-6, all power functions within 2u, all inputs carrying up to j roundings", "why_tests_cant": "universal over arguments and roundings; a test compares with the same floating point result", "anchors": ["ADRpy/constraintanalysis.py, lines 1222-1255, 1285-1311, 1343-1375, 1420-1425, 1533-1539, 1630-1632, 1760-1762, 2446-2521", "ADRpy/unitconversions.py, lines 168-174", "ADRpy/atmospheres.py, lines 728, 756-757"]}
{"id": "C129", "title": "Standard atmosphere in floating point", "statement": "With every literal and operation rounded, and the library's power, exponential and logarithm within one unit in the last place, for altitudes from -5000 m to 50 km and temperature offsets up to 100 degrees the code's ISA temperature is within 1110 units of rounding (in kelvin; 1.3e-13 K in binary64) of the exact formula, the speed of sound within 10 units relative, the pressure within 117 units (40 below 20 km), the density with offset within 135 units (43 below 20 km). The pressure altitude of every floating point pressure from 70 Pa to 120000 Pa other than the four rounded boundary values is within 1e7 units (about a nanometre) of the exact one. The cruise requirement at such an altitude is within 421 units.", "quantifier": "all altitudes, offsets and pressures in these ranges, all roundings with relative error u < 1e-6, all library functions within 2u", "why_tests_cant": "universal over a continuous range; the large exponents (35) and the subtractions in the inverse functions could amplify rounding at untested altitudes", "anchors": ["ADRpy/atmospheres.py: _isatemp_k, _isapress_pa, _isapressalt_m, _isadens_kgpm3, lines 475-566", "ADRpy/atmospheres.py: _vsound_mps, lines 882-885"]}
{"id": "C130", "title": "The numbers in the unit tests", "statement": "In exact arithmetic the code returns the numbers the project's tests ask for, rounded as the tests round them: geometric and geopotential altitude, temperature, pressure, density and speed of sound of the standard atmosphere at sea level, 10000 m and -5000 m, the two runways of Heathrow in the shipped file, the wind components on its runway, the temperature in a MIL-HDBK-310 profile, the stall speed, and the lift coefficients and the infeasible entry of the turn of the business jet. In binary64 arithmetic the tested temperatures are exactly 15 and -50 degrees. (False: for the temperature at 9984.3 m, which is exactly half way between two of the test's integers and goes to the other one; that test passes only because of the rounding error of binary64. False also for the recorded thrust to weight ratios of the climb and of the turn, which differ from those of the code in the third digit at 7000 Pa; these assertions compare only whether the arrays contain zeros, and hold.)", "quantifier": "the inputs of the tests; all external interpolators; all readings of the shipped runway file", "why_tests_cant": "a test cannot tell whether it passes by agreement, by rounding error or because its assertion is too weak", "anchors": ["tests/t_atmospheres.py: lines 23-126", "tests/t_constraintanalysis.py: lines 14-25, 194-247, 290-306", "ADRpy/constraintanalysis.py: twrequired_clm, twrequired_trn, vstall_kias", "ADRpy/atmospheres.py: Atmosphere, Runway, mil_hdbk_310"]}
{"id": "C131", "title": "The engine tables that come with the code", "statement": "Every engine of ADRpy/data/engine_data builds from the files there, in whatever order they are listed (the IO-540 builds with its own tables or raises KeyError), with every data line of every file in its deck, and its tables are physically sound: no blanks in any row that is used, Mach numbers between -0.001 and 2, altitudes between 0 and 19812 m, positive thrusts and powers, specific fuel consumption and efficiency within narrow bounds, efficiency below one. The correction factors are relative to the tabulated sea level value. (False: the F404-400 and the Tyne have their largest thrust and power above sea level, so their factors are 0.807 and 0.887 in the lowest sea level row; the TFE731-5 table starts at 6096 m and has nothing below. Six jets, the T56-A and the Wasp Major have no value at rest or at altitude zero, and NaN enters the constraint analysis there; the T56-A has no fuel consumption below 3048 m, the IO-540 no power above 2575 rpm though fuel consumption to 2700 rpm; the J52 consumption plot raises ValueError.)", "quantifier": "all directories with the shipped files in any order; all 16 engines; all rows of all tables; all interpolators that reproduce the table or give NaN outside it", "why_tests_cant": "the value tests of tests/t_propulsion.py read file names that do not exist and so compare nothing; a test looks at a few points, a bound holds for all rows", "anchors": ["ADRpy/data/engine_data/Jet_CSVs", "ADRpy/data/engine_data/Turboprop_CSVs", "ADRpy/data/engine_data/Piston_CSVs", "ADRpy/data/engine_data/Electric_CSVs", "ADRpy/propulsion.py: _deck_setup, sl_powercorr, sl_thrustcorr, demoplot_tsfc", "tests/t_propulsion.py"]}
{"id": "C132", "title": "The sea level thrust polynomials that come with the code", "statement": "The nine sea level polynomials are positive over their whole range, from Mach zero to their limit, with no value outside; six fall with the Mach number throughout; each is within half a per cent of every sea level row of the thrust table inside its limits. The three take-off polynomials are positive and falling, and above the other polynomial wherever both exist. (False: the F404-400, J52 and J60 rise over part of the range. The JT8D-9 has no take-off thrust at Mach zero. Three tables have a sea level row at a negative Mach number where the polynomial has no value. The documentation calls the polynomials 6th order: they are of degree seven, and no polynomial of degree six equals any of them. The documented value of sl_thrust(0.5) for the JT8D-9 differs from that of the data file by more than 3e-6.)", "quantifier": "all directories with the shipped files in any order; all Mach numbers of each range (a continuum)", "why_tests_cant": "sign and monotonicity of a degree seven polynomial over an interval are statements about infinitely many points", "anchors": ["ADRpy/data/engine_data/Jet_CSVs/*polynomial.csv", "ADRpy/propulsion.py: JetDeck.sl_thrust, JetDeck.sl_take_off_thrust, _poly_process, _poly"]}
{"id": "C133", "title": "The numbers in the README and in the notebooks", "statement": "The outputs that README.md and the notebooks print are those of the code, to the digits printed: the density at 41000 ft on an ISA+10 day; thrust to weight ratios and lift-off speeds of the take-off example in the MIL-HDBK-310 hot atmosphere; pressure, true airspeed and Mach number of the atmosphere notebook; the cruise Mach number and the best climb speeds (10 to 13 digits) of the cruise notebook; the approach stall limit of the Keane example; the sea level thrust of the JT8D-9. (False: the lift-off speeds called KEAS are relative to the sea level density of the hot atmosphere; by the definition the first is 96.6 knots, not 97.0. The brief of the cruise notebook gives the climb speed under a key that the code does not know; it is accepted silently and the climb requirement raises ValueError.)", "quantifier": "all interpolators and engine data (the take-off example does not depend on them); all wing loadings for the error", "why_tests_cant": "the tests do not run the README or the notebooks, and rounding in the last printed digit needs bounds on powers and exponentials of reals", "anchors": ["README.md:61-143", "docs/ADRpy/notebooks", "ADRpy/atmospheres.py: airdens_kgpm3, eas2tas, tas2eas, mach, mil_hdbk_310", "ADRpy/constraintanalysis.py: twrequired_to, bestclimbspeedprop, wsmaxcleanstall_pa, twrequired_clm", "ADRpy/propulsion.py: JetDeck.sl_thrust"]}
{"id": "C134", "title": "Equivalent and calibrated airspeeds on days that are not standard", "statement": "An equivalent airspeed is defined with the sea level density 1.225 of the standard day, so the dynamic pressure, stall speed (KEAS, KCAS) and smallest wing that belong to one do not depend on the day; the two pairs of conversion functions agree. (False: Atmosphere.eas2tas and tas2eas use the sea level density of their own atmosphere, the functions of unitconversions 1.225; they agree only if the two densities are equal, and in general differ by the root of their ratio. On a day off by d degrees the dynamic pressure of a given equivalent airspeed is that of the standard day times 288.15/(288.15+d). The stall limit of the wing loading uses the design atmosphere for a calibrated speed while the stall speed uses the standard day: at the limit found on a cold day the aeroplane stalls above the required speed, the smallest wing grows linearly with the temperature, and the stall boundary of the V-n diagram moves with the root of the sea level temperature.)", "quantifier": "all atmospheres with positive density; all offsets, altitudes, speeds, load factors and designs", "why_tests_cant": "tests use the standard day or one offset; that two functions agree exactly when a density equals 1.225 is a statement over all atmospheres", "anchors": ["ADRpy/atmospheres.py:731-762", "ADRpy/unitconversions.py:168-174", "ADRpy/constraintanalysis.py:2303-2379", "ADRpy/airworthiness.py:137-168"]}
{"id": "C135", "title": "No undefined operation on physical data", "statement": "In the formulas of the code every division, root, power, logarithm and tangent is defined on physical data: the five requirements (positive wing loading, weight fraction and airspeed, complete data, and a nonzero correction when mapped to sea level), stall and best climb speeds, the span efficiencies and lift slope estimates (positive aspect ratio and section slope, sweeps below 90 degrees, Mach number below 1), the standard atmosphere at every altitude, the engine corrections above absolute zero, and the CS-23 stall speed, chords, limit load, alleviation factor and gust formulas. Where the exact condition is simple it is given: outside it the operation is undefined (the pressure altitude of a pressure that is not positive, the supersonic slopes up to Mach 1, a zero wing loading). (False: the correction of a piston engine is zero at one altitude between 11 and 20 km of the standard atmosphere, where the requirement mapped to sea level is a division by zero.)", "quantifier": "all real inputs of the formulas; all concepts with complete data, all interpolators and engine data", "why_tests_cant": "a test sees one finite number; that no input in a range leads to a pole, and that the model's total functions never hide one, is a statement over all of them", "anchors": ["ADRpy/constraintanalysis.py:512-802, 991-1033, 1144-1660, 2303-2521", "ADRpy/atmospheres.py:464-620, 656-757, 882-1027", "ADRpy/airworthiness.py:137-185, 346-501"]}
{"id": "C136", "title": "Small changes of the inputs do not make the results jump", "statement": "The take-off requirement (not mapped to sea level) and the cruise requirement are continuous functions of the wing loading, the climb, ceiling and turn requirements and the largest of all five wherever the lift coefficients lie within 10 of that of the cruise; the cruise requirement is a continuous function of the cruise speed up to Mach 0.6. The lift slope is continuous in the Mach number up to 0.6 (its subsonic estimate up to 1), the fourth Oswald estimate at all Mach numbers (no jump at 0.3 or at the floor), the factor with full leading-edge suction wherever that without suction is (no jump at Mach 1 or at the sonic leading edge). (False over the bypass ratio: the static take-off requirement rises by a ninth at 1, and below the throttle break the cruise requirement mapped to sea level falls by the factor 0.8 (1 - 0.16 sqrt M) when the bypass ratio leaves 0 and grows by 1 / (1 - 0.49 sqrt M) at 5. False over the sweep: the supersonic lift slope of a wing without leading edge sweep differs by 1 / (3 AR (M^2 - 1)) from that of a slightly swept one, and the estimate for swept wings jumps where the leading edge becomes supersonic. False over the aspect ratio: the Mach number of the slope peak takes finitely many values and jumps between them.)", "quantifier": "all concepts with complete data, all wing loadings, speeds, Mach numbers, bypass ratios, sweeps and aspect ratios in the stated ranges, all interpolators", "why_tests_cant": "a test compares values at points; whether a function has jumps between them is a statement about all points", "anchors": ["ADRpy/constraintanalysis.py:512-640, 722-886, 947-1018, 1070-1104, 1144-1260, 1276-1660, 2381-2388", "ADRpy/atmospheres.py:895-1019"]}
{"id": "C137", "title": "Concepts that share dictionaries", "statement": "Whatever a program does after making a concept (further concepts from the same or other dictionaries, sensitivity studies, entries set in any dictionary), short of setting attributes of this concept, its attributes and requirements stay those of the dictionaries at the time it was made. As long as no entry of its own dictionaries is set, neither these dictionaries nor the result of its sensitivity study change; a concept made from empty dictionaries has dictionaries of its own. A concept made from the same dictionaries after an entry was set differs from the first in this entry only (the documented loop over wing heights). The nominal curve of the sensitivity study always is the requirement of the concept. (False: the study reads the dictionaries again, so an entry set after the concept was made changes the curve of the study but not the requirement, and an attribute set in the concept changes the requirement but not the curve; atmosphere, propulsion and mass of the study come from the attributes.)", "quantifier": "all programs of any length over any number of concepts and dictionaries, all entries and values", "why_tests_cant": "A test runs one short program; whether anything in a long one reaches an earlier concept through a shared dictionary depends on every sequence of constructions, studies and assignments.", "anchors": ["ADRpy/constraintanalysis.py:258-508, 2011-2097, 2417-2435"]}
{"id": "C138", "title": "Observed atmospheres that do not cover every altitude", "statement": "An atmosphere built from a record of rising altitudes answers at an altitude exactly when it lies between two recorded ones, and raises TypeError otherwise. Each requirement is answered exactly when the record covers the altitudes it concerns: take-off the runway; cruise the cruise altitude; turn its own altitude and the cruise altitude (if the brief has one); climb and service ceiling their own altitude, the cruise altitude and sea level; the combined thrust and power requirements all of them; in every other case the call raises TypeError, never a number. A record that covers every altitude of the brief serves the whole brief. (False: the conversion between equivalent and true airspeed and the clean stall limit always ask for the density at altitude 0, so with a record from an upland field every speed conversion, the climb, ceiling, combined and power requirements and the stall limit fail, although take-off, cruise and turn are answered.)", "quantifier": "all records of any length, all altitudes, concepts with complete propulsion data, wing loadings and engine tables", "why_tests_cant": "The tests use profiles that start at sea level and evaluate a few altitudes; which of the six altitudes each of the evaluations touches, in every order of failures, is a statement about all records and briefs.", "anchors": ["ADRpy/atmospheres.py:276-312, 589-660, 731-762", "ADRpy/constraintanalysis.py:937-945, 1144-1379, 1429-1663, 1667-1822, 2355-2373"]}
{"id": "C139", "title": "The design point read off a grid of wing loadings", "statement": "Between two wing loadings (with lift coefficients within 10 of those of the cruise, and the turn possible at the lower one) the combined thrust requirement has a smallest value, whether infeasible turns are left out or not. No entry computed on any grid between them is below it, and the smallest entry that is not NaN is as close to it as desired once the steps are small enough; np.linspace grids with more points have such steps. The induced drag factor of the cruise is the same for all wing loadings with cruise lift coefficients up to 0.3 (and from 0.8 on); where it is the same, a wing loading w off the best one w0 costs the share (w - w0)^2 / (2 w w0) of the least cruise requirement.", "quantifier": "all concepts with complete briefs whose altitudes the atmosphere covers, all intervals, grids of any length, tolerances", "why_tests_cant": "A test computes one grid; that a smallest requirement exists at all and that finer grids approach it rests on the continuity of five requirements up to the stall boundary of the turn, for every concept.", "anchors": ["ADRpy/constraintanalysis.py:937-1016, 1262-1316, 1543-1730"]}
{"id": "C140", "title": "Weight of the air in the MIL-HDBK-310 profiles", "statement": "In each of the 24 hot, cold, dense and thin profiles that mil_hdbk_310 returns, the pressure lost between two tabulated altitudes is the weight of the air between them (within 0.969 to 1.01 of mean density times gravity at mid-layer times 2 km). Layers that satisfy it can be stacked: the pressure loss over a column is its weight within the same margin, and between tabulated altitudes the loss is in proportion to the altitude. (False as documented: 27 of the 960 layers, next to misprinted temperatures or densities, do not carry their air, and in six of them pressure rises with altitude.)", "quantifier": "all twelve files, both percentiles, all 40 layers, all altitudes inside a layer, all columns of such layers", "why_tests_cant": "The tests print a few altitudes of one profile. The balance involves each pair of neighbouring entries after the conversion of density and temperature to pressure; the misprints it finds pass every range check and most of them the check that density falls with altitude.", "anchors": ["ADRpy/atmospheres.py:276-303, 841-872", "ADRpy/data/_MHDBK310/*.m310"]}
{"id": "C141", "title": "CS-23 formulas in floating point", "statement": "Computed with a rounding after every operation, the quantities of the CS-23 assessment are as exact as their inputs up to a small number of units of rounding: limit load factors (6 and 8 units), stall and manoeuvring speeds (j + 7, j + 12), mean chords (3, 15), gust velocities (43, at every altitude, also at the corners 20000 and 50000 ft where a rounded comparison can take the other branch), gust load factors (6j + 79 for the positive; 6j + 80 units of the positive one for the negative, which may cancel), minimum cruising and dive speeds (66, 128) and the gust penetration speed (3j + 16), where densities, lift slope and alleviation factor may carry j roundings of their own (2j for the density in the stall speed).", "quantifier": "all rounding operations that are monotone with relative error u below one millionth (IEEE binary64 in particular), all math libraries within two units, all weights, areas, aspect and taper ratios, altitudes, densities, slopes, categories and gusts", "why_tests_cant": "A test compares a handful of results with printed values to a tolerance chosen afterwards. The bound holds for all inputs; in the piecewise linear tables a rounding can move the input across a corner, which no sample is likely to hit.", "anchors": ["ADRpy/airworthiness.py: _paragraph335, _paragraph337, _paragraph341, vs_keas, flightenvelope", "ADRpy/unitconversions.py"]}
{"id": "C142", "title": "No overflow and no loss of digits in the constraint and CS-23 formulas", "statement": "In IEEE binary64 with its bounds of the exponent (infinity above 2^1024, fewer digits below 2^-1022) the thrust to weight ratios for cruise, service ceiling, climb, take-off and turn, the power, and the stall speed, limit load, chords and gust load factors of CS-23 are numbers, the same as with an unbounded exponent, whenever the data are between 2^-40 and 2^40 (about 1e-12 to 1e12); hence the bounds of C128 and C141 apply to what Python computes. Outside such bounds the formulas do overflow: for a wing loading of 2^-1030 Pa the cruise formula is infinite.", "quantifier": "all data between 2^-40 and 2^40 (rolling resistance also zero; climbs of at most 45 degrees), all C libraries whose pow is within one unit in the last place inside the range, densities, drag factors and thrust corrections with up to j roundings of their own", "why_tests_cant": "Overflow and underflow arise in intermediate results (squared speeds, products of five factors), which no test looks at; absence over all data is a statement about every operation of every formula.", "anchors": ["ADRpy/constraintanalysis.py: twrequired_crs, twrequired_sec, twrequired_clm, twrequired_to, twrequired_trn, powerrequired", "ADRpy/airworthiness.py: vs_keas, _meanchord_m, _paragraph337, _paragraph341", "ADRpy/unitconversions.py"]}
{"id": "C143", "title": "What an error of the inputs does to the requirements", "statement": "If two statements of the same design problem differ in every input by a factor of at most r (speed, density, drag coefficient, induced drag factor, weight fractions, load factor, ground run, lift coefficients, rolling resistance, climb rate, thrust correction, wing loading), the thrust to weight requirements differ by at most r^9 in cruise, r^8 at the service ceiling, r^12 in climbs of at most 45 degrees, r^11 in the turn and r^6 at take-off; lift-off speeds by at most r^2 and lift coefficients in the turn by at most r^7. One per cent in everything is therefore at most 9.4, 8.3, 12.7, 11.6 and 6.2 per cent. A turn whose lift coefficient is below the maximum by the factor r^8 is feasible in both.", "quantifier": "all pairs of concepts with positive data, all atmospheres and wing loadings, with and without mapping to sea level, all r from 1 on", "why_tests_cant": "Input uncertainty is a pair of arbitrary concepts; a test fixes one, and sampling perturbations does not bound the worst combination of signs.", "anchors": ["ADRpy/constraintanalysis.py: twrequired_crs, twrequired_sec, twrequired_clm, twrequired_trn, twrequired_to", "ADRpy/atmospheres.py: dynamicpressure_pa, eas2tas"]}
{"id": "C144", "title": "Thrust and power factors in floating point", "statement": "Computed with rounding after every operation, between -100 and 60 degrees Celsius and up to Mach 2, the total temperature and pressure ratios are within 23 and 74 rounding units of their formulas (relative), the turbofan factors within 525 (high bypass ratio), 890 (low) and 540 (low, dry), the turbojet factors within 810 (afterburner, throttle ratios from 0.5) and 552 (dry), and the turboprop factor within 950 from Mach 0.2 and 74 up to Mach 0.1 rounding units of the total pressure ratio; the piston power factor is within 7 sigma + 1 rounding units, sigma being the density ratio. The bounds hold also where rounding sends the computation into the other branch of the throttle test.", "quantifier": "all roundings to nearest and C libraries within the stated accuracy, all temperatures from -100 to 60 degrees, all positive pressures, all Mach numbers up to 2, all non-negative throttle ratios", "why_tests_cant": "The throttle test compares a rounded temperature ratio: near the threshold the computed branch may be the wrong one, and a test would have to hit a set of inputs a few rounding units wide to see it.", "anchors": ["ADRpy/atmospheres.py: tempratio, pressratio, turbofanthrustfactor, turbopropthrustfactor_matt, turbojetthrustfactor, pistonpowerfactor"]}
{"id": "C145", "title": "The propulsion argument as a Python value", "statement": "An engine deck handed to the constructor as documented (the deck itself, or a tuple of at most two items that begins with the deck and may go on with a propeller) supplies the altitude corrections. (False: a tuple with the deck alone is dropped without an error, as are lists and longer tuples; the bypass ratio then decides, by default a piston engine. A pair that does not begin with a deck, such as the propeller first or a type name, corrects nothing.) The deck itself and the pair are used. Every Python value leaves an attribute that the correction can read. Read again by the concepts of a sensitivity study the attribute is unchanged, except that False becomes the tuple (False, None).", "quantifier": "all Python values (None, booleans, strings, tuples and other sequences of any contents, decks, other objects with any outcome of iter), all dictionaries, atmospheres, speeds and altitudes", "why_tests_cant": "The argument is an arbitrary object of an untyped language; the tests pass the few kinds their author thought of.", "anchors": ["ADRpy/mtools4acdc.py: iterable", "ADRpy/constraintanalysis.py: AircraftConcept.__init__, _propulsion_slcorr"]}
{"id": "C146", "title": "Warnings of the thrust and power requirements", "statement": "Whatever a requirement assumes in place of data that were not given is announced by a warning, and nothing else is. (False: a pair without a deck corrects nothing and announces nothing; the deprecated type codes -1, -2 and -3 are accepted without the warning of deprecation, which the bypass ratios strictly between them receive; the warning of negative airspeeds can never be issued; a Mach number given to induceddragfact without a choice of estimates is ignored in silence.) For every other assumption the warnings of a successful evaluation are determined: missing propulsion data, an unknown type name, missing cruise conditions (single requirements), the number of efficiencies filled in with defaults, and, for the power requirement, a turn that is feasible at none of the wing loadings. The span efficiency is announced to be out of bounds exactly when it is replaced by 0.001. The results are those of the calls without regard to warnings.", "quantifier": "all concepts, wing loadings, take-off masses and options for which the evaluation succeeds", "why_tests_cant": "A warning that can never be issued, or that is missing for some of infinitely many concepts, shows in no finite set of runs.", "anchors": ["ADRpy/constraintanalysis.py: oswaldspaneff4, induceddragfact, induceddragfact_lesm, _propulsion_slcorr, twrequired, powerrequired", "ADRpy/atmospheres.py: Atmosphere.mach"]}
{"id": "C147", "title": "Warnings of the V-n diagram", "statement": "Where the flight envelope departs from the speeds given it says so, and it warns only where there is cause. (False: a cruise speed below the regulatory minimum and a dive speed below 1.25 times the cruise speed are replaced in silence; the warning that the cruise speed need not exceed 0.9 times the level speed is issued for every cruise speed once the regulatory minimum exceeds that limit, which is not applied; a figure size that is not a pair is announced for lists only.) Otherwise the warnings of a diagram are determined by the speeds in it: an assumed dive speed exactly when none was given, the manoeuvring speed exactly when the wing cannot produce the limit load at the cruise speed, the inverted stall speed exactly when the inverted wing has the larger lift coefficient. The diagram is that of the call without regard to warnings.", "quantifier": "all aircraft, weight fractions, categories, speeds and figure sizes for which a diagram is drawn", "why_tests_cant": "Which of infinitely many combinations of weights, speeds and lift coefficients draw a warning, and that none other does, shows in no finite set of runs.", "anchors": ["ADRpy/airworthiness.py: CertificationSpecifications.flightenvelope"]}
{"id": "C148", "title": "Warnings of the engine decks", "statement": "A deck that cannot answer says why, names what is missing, and is silent otherwise. (False: a query outside the table answers NaN without a word; the turboprop names the thrust-specific consumption when the table of the power-specific one is missing; the plots of turboprop decks and of piston power, and the plot of jet consumption against altitude, raise AttributeError in silence where the table is missing.) Otherwise a query answers None exactly when one warning names the missing quantity or, for piston consumption, the unknown mixture; the sea-level fits distinguish missing data, too high and too low Mach numbers; the remaining plots are drawn in silence, or not drawn with exactly one warning; thrust and consumption of propeller engines, when there is an answer, warn exactly when no propeller was given. The results are those without regard to warnings.", "quantifier": "all decks, files, engine names, Mach numbers, altitudes, engine speeds, powers and propellers", "why_tests_cant": "Which of the warnings is issued for which of infinitely many data directories and arguments, and that none other is, shows in no finite set of runs.", "anchors": ["ADRpy/propulsion.py: TurbopropDeck, PistonDeck, ElectricDeck, JetDeck, _poly"]}
{"id": "C149", "title": "Warnings of the sensitivity study", "statement": "The sensitivity study announces every argument it replaces (a quantity, axis or figure size it does not support, a limit that is no Python number), even if it then fails, and what the requirements it evaluates announce; with the warnings the charts are those of C116. A study that completes announces exactly the arguments replaced, an unknown engine type, and for the power that one of the evaluated concepts (nominal, or one range at an end) cannot turn at any wing loading, besides the bounded span efficiencies. (False: that it announces what the requirement of the concept itself announces. That no propulsion system was given, that the bypass ratio is no type code and that efficiencies were set to defaults is never said, because the concepts are built anew from dictionaries already completed and with False as the propulsion system. A text that names no chart draws nothing without a word; a limit of 0 is kept.)", "quantifier": "all design spaces with distinct keys, arguments, wing loadings, external numerics", "why_tests_cant": "any number of evaluated concepts and arguments", "anchors": ["ADRpy/constraintanalysis.py: propulsionsensitivity_monothetic, lines 1948-2122; powerrequired, lines 1752-1773"]}
{"id": "C150", "title": "Requirements with an engine deck", "statement": "With an engine deck as propulsion argument, `twrequired` and `powerrequired` give the requirements at the flight conditions, each divided by the deck's correction at the Mach number and altitude of its own condition (take-off: at the lift-off speed of each wing loading); lift-off speeds and lift coefficients are those without mapping. Outside the deck's table the requirement is NaN: the combined requirement is NaN at all wing loadings if turn, climb, cruise or ceiling lie outside, and at the wing loadings whose lift-off speed does. (False: that `map2sl` maps thrust and power with every deck: turboprop, piston and electric decks leave the thrust requirements, jet and electric decks the power requirements as they are. False: that a deck without the table is good enough for requirements that are not mapped to sea level: the correction is evaluated anyway and raises.)", "quantifier": "all decks, interpolants, concepts, wing loadings, external numerics", "why_tests_cant": "all tables and interpolants, any number of wing loadings", "anchors": ["ADRpy/constraintanalysis.py: AircraftConcept.twrequired_clm, _crs, _sec, _to, _trn, twrequired, powerrequired, lines 1144-1833; _propulsion_slcorr, lines 1106-1142"]}
{"id": "C151", "title": "The engine decks that come with the code, in the constraint analysis", "statement": "With every jet deck (thrust) and every turboprop and piston deck (power) of ADRpy/data/engine_data as propulsion argument, the requirements mapped to sea level evaluate wherever those without mapping do, and give one combined value per wing loading. Each value reported for a non-negative requirement is at least the requirement at the flight condition and at most the ratio of the largest to the smallest tabulated value times it, up to the overshoot of the cubic interpolation. (False: that they can size an aircraft for any runway and ceiling: a turn, climb, cruise or ceiling condition beyond the table - altitude or Mach number - turns the combined requirement into NaN at every wing loading, a lift-off speed beyond it at that wing loading. The Wasp Major deck gives nothing at a runway at sea level, the default, since its table starts at 1.02 m; the TFE731-5 deck nothing at any runway below 6096 m.)", "quantifier": "all listings of the shipped files, concepts, wing loadings, and interpolants without values outside the table", "why_tests_cant": "all concepts and interpolants; the tables have thousands of rows", "anchors": ["ADRpy/data/engine_data", "ADRpy/constraintanalysis.py: AircraftConcept.twrequired, powerrequired, _propulsion_slcorr, lines 1106-1833", "ADRpy/propulsion.py: _griddata_interpolate, lines 1841-1863"]}
{"id": "C152", "title": "Span efficiency and induced drag factor in floating point", "statement": "Computed with rounding after every operation, for aspect ratios up to 30, leading edge and maximum thickness sweeps up to 60 degrees either way, quarter chord sweeps from 0 to 60 degrees and taper ratios from 0 to 1, the second Oswald estimate is within 600 and the fourth (up to Mach 0.3) within 690 rounding units of its formula (relative), the first within 16 and the third within 80 rounding units (absolute, aspect ratios from 1). The induced drag factor with no estimate selected is within 700 rounding units (relative), and the computed number is above the ideal 1/(pi AR).", "quantifier": "all roundings to nearest, all C libraries within one unit in the last place, all wings in the stated ranges", "why_tests_cant": "The second estimate adds 2 - AR to a root that is almost AR, the fourth evaluates a quartic with alternating signs: how many digits are lost depends on the wing, and tests sample few.", "anchors": ["ADRpy/constraintanalysis.py: AircraftConcept.oswaldspaneff1, oswaldspaneff2, oswaldspaneff3, oswaldspaneff4, induceddragfact, lines 512-640"]}
{"id": "C153", "title": "Airspeeds in the ISA in floating point", "statement": "Computed with rounding after every operation, from the ISA formulas to the result, at altitudes from sea level to 50 km and temperature offsets up to 100 degrees either way: the true airspeed of an equivalent airspeed is within 94 rounding units (relative), the Mach number returned with the calibrated airspeed within 106, and up to Mach 1 the calibrated airspeed within 80 rounding units in m/s and 82 in knots.", "quantifier": "all roundings to nearest, all C libraries within one unit in the last place, all altitudes, offsets and equivalent airspeeds in the stated ranges", "why_tests_cant": "The correction subtracts terms of the pressure ratio, which loses digits at some altitudes only; tests compare a few printed values.", "anchors": ["ADRpy/atmospheres.py: Atmosphere.eas2tas, mach, mpseas2mpscas, keas2kcas, lines 656-672, 731-838", "ADRpy/atmospheres.py: _isatemp_k, _isapress_pa, _isadens_kgpm3, lines 475-566"]}
{"id": "C154", "title": "Stall speed, stall-limited wing, best climb speed and turn radius in floating point", "statement": "Computed with rounding after every operation: the stall speed at a wing loading is within 27 rounding units (relative); in an ISA with an offset up to 100 degrees either way the stall-limited wing loading is within 53 and the smallest wing area within 56; the stall speed computed for the stall-limited wing loading computed in the standard atmosphere returns the stall speed of the brief to 53 rounding units plus the 2e-7 of the knots factors; the best climb speed of a propeller aircraft, from wing geometry and altitude to the result, is within 250; the turn radius of a bank angle up to 60 degrees is within 45.", "quantifier": "all roundings to nearest, all C libraries within one unit in the last place, all positive wing loadings, speeds, masses and lift coefficients, all usual wings, all altitudes from sea level to 50 km, all bank angles in the stated range", "why_tests_cant": "Each result passes through the atmosphere, conversion factors that are not inverse to each other, and for the climb speed the whole estimate of the induced drag factor; tests compare a few printed values.", "anchors": ["ADRpy/constraintanalysis.py: vstall_kias, wsmaxcleanstall_pa, smincleanstall_m2, lines 2303-2379", "ADRpy/constraintanalysis.py: bestclimbspeedprop, bank2turnradius, lines 1020-1033, 1514-1522"]}
{"id": "C155", "title": "Wind components, geopotential heights, gas law and airspeed round trips in floating point", "statement": "Computed with rounding after every operation: for wind directions at most 360 degrees from the runway heading both wind components are within 41 rounding units of the wind speed, the sum of their squares is the square of the wind speed to 165 units, and a head wind is never reported as a tail wind (nor a cross wind from the wrong side) unless the component is below 41 units of the speed. Geopotential and geometric heights are within 4 units (relative) and a height up to 100 km survives the conversion there and back to 9 units. The gas law is within 4 units both ways and the pressure of the density of a pressure is that pressure to 5. An airspeed converted between equivalent and true and back, in either order, at an altitude of the ISA returns to 3 units whatever the error of the density, and the equivalent airspeed of a true airspeed is within 92 units.", "quantifier": "all roundings to nearest, all libraries with sine and cosine within four units in the last place, all directions, headings, speeds, heights, pressures, temperatures and airspeeds in the stated ranges", "why_tests_cant": "Tests compare a few printed values; winds nearly across the runway, where the cosine loses all relative accuracy, and round trips of computed values are not among them.", "anchors": ["ADRpy/atmospheres.py: Runway.windcomponents, lines 207-272", "ADRpy/atmospheres.py: idealgasdens_kgm3, idealgaspress_pa, geom2geop45m, geop2geom45m, lines 59-73", "ADRpy/atmospheres.py: Atmosphere.eas2tas, tas2eas, lines 731-762"]}
{"id": "C156", "title": "Density altitude and altitudes of computed pressures and densities in floating point", "statement": "With every literal and operation rounded, the density altitude of every floating point density from 0.0009 to 1.6 kg/m^3 other than the four rounded boundary values is within 1e7 units of rounding in metres (about a nanometre in binary64) of the exact one. For every altitude from sea level to 10990 m the pressure altitude of the pressure the code computes there is that altitude to 1.4e6 units, and the density altitude of the density it computes on a standard day is that altitude to 1.3e6 units (about 0.15 nanometres).", "quantifier": "all roundings to nearest, all C libraries within one unit in the last place, all densities and altitudes in these ranges", "why_tests_cant": "A round trip through two rounded power functions amplifies errors by the inverse of a slope of 2e-5 per metre; tests sample a few altitudes and compare to a few digits.", "anchors": ["ADRpy/atmospheres.py: _isadensalt_m, lines 569-589", "ADRpy/atmospheres.py: _isapress_pa, _isapressalt_m, _isadens_kgpm3, lines 499-566"]}
{"id": "C157", "title": "Requirements of a piston engined aircraft in the ISA, end to end in floating point", "statement": "For a piston engined aircraft in the ISA with an offset, at any altitude where the engine keeps a tenth of its sea level power, the requirement at one wing loading that the methods return in exact arithmetic (mapped to sea level) and the one computed with every literal and operation rounded, densities and thrust correction included, differ by at most 174 units of rounding relative for the cruise, 653 for the climb up to 45 degrees, 263 for the service ceiling, 219 for the take-off (48 for the lift-off speed) and 280 for the turn, plus the roundings carried by the induced drag factor. The thrust correction itself is accurate to 112 units relative. Every day up to 30 degrees above standard and altitude up to 25000 ft qualifies.", "quantifier": "all roundings to nearest, all C libraries within one unit in the last place, all aircraft with positive drag coefficient, weight fractions and induced drag factor, all wing loadings, speeds, offsets and altitudes in these ranges", "why_tests_cant": "The bound is on the whole chain of some hundred rounded operations, with a subtraction in the thrust correction that loses accuracy as the engine loses power; a test compares a few printed digits at a few points.", "anchors": ["ADRpy/constraintanalysis.py: twrequired_clm, twrequired_crs, twrequired_sec, lines 1144-1383", "ADRpy/constraintanalysis.py: thrusttoweight_takeoff, twrequired_to, lines 1385-1512", "ADRpy/constraintanalysis.py: thrusttoweight_sustainedturn, twrequired_trn, lines 1524-1656", "ADRpy/constraintanalysis.py: _propulsion_slcorr, lines 1035-1142", "ADRpy/atmospheres.py: pistonpowerfactor, lines 1022-1027"]}
{"id": "C158", "title": "Powers in horsepower of a piston engined aircraft in the ISA, end to end in floating point", "statement": "For a piston engined aircraft in the ISA with an offset of up to 100 degrees, from 5 km below sea level to 20 km, whenever `powerrequired` returns at one wing loading in exact arithmetic, the powers it returns and those computed with every literal and operation rounded, densities and true airspeeds included, differ by at most 71 units of rounding relative for the cruise, 595 for the climb up to 45 degrees, 205 for the service ceiling, 161 for the take-off and 177 for the turn, plus the roundings carried by the induced drag factor. The combined power, and the combined thrust to weight ratio of `twrequired`, are NaN only where infeasible turns are left out; otherwise they are the largest of the five values and as accurate as the least accurate of them.", "quantifier": "all roundings to nearest, all C libraries within one unit in the last place, all aircraft with positive drag coefficient, weight fractions and induced drag factor, all take-off masses and propeller efficiencies, all wing loadings, speeds, offsets and altitudes in these ranges", "why_tests_cant": "The bound is on the whole chain from the atmosphere to the horsepower figure; a test compares a few printed digits at a few points.", "anchors": ["ADRpy/constraintanalysis.py: powerrequired, lines 1732-1833", "ADRpy/constraintanalysis.py: twrequired, lines 1667-1730", "ADRpy/constraintanalysis.py: twrequired_clm, twrequired_crs, twrequired_sec, lines 1144-1383", "ADRpy/constraintanalysis.py: thrusttoweight_takeoff, twrequired_to, lines 1385-1512", "ADRpy/constraintanalysis.py: thrusttoweight_sustainedturn, twrequired_trn, lines 1524-1656", "ADRpy/unitconversions.py: wn2hpkg, lines 148-150"]}
