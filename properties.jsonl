{"id": "C01", "title": "NamedValues is an insertion-ordered map", "statement": "For any sequence of NamedValues.set_val / delete / clear / update calls, get_item(key) returns exactly the (value, units) pair of the last successful set_val for that key since its last delete/clear (or the supplied default when there is none); `key in nv`, len(nv), iteration order and items() agree with that history: each key appears once, in order of first insertion since it was last removed. A call that raises leaves the container exactly as it was (set_val, delete).", "quantifier": "all operation sequences of any length over any keys, values and unit strings", "why_tests_cant": "Tests run a handful of fixed set/get sequences; the claim is about every history, including re-insertion after delete and overwrites with different units.", "anchors": ["aviary/utils/named_values.py:37-310"]}
{"id": "C02", "title": "NamedValues.get_val converts units and never mutates", "statement": "get_val(key, units) raises TypeError when `units` is not a valid unit, KeyError when the key is absent and no default is usable, TypeError when stored and requested units are incompatible; otherwise it returns the stored value converted to the requested units. Setting v in unit u and reading it back in u returns v unchanged, and reading in w then converting back to u returns v for every pair of compatible units. No get mutates the container.", "quantifier": "all containers, keys, values and pairs of (affine) units", "why_tests_cant": "Needs every pair of units and every value; tests use feet/metres/degF only.", "anchors": ["aviary/utils/named_values.py:114-151", "aviary/utils/utils.py:31-71"]}
{"id": "C03", "title": "NamedValues.update applies its items left to right", "statement": "update(other, **kwargs) on any mapping / iterable of (key,(value, units)) / NamedValues is equivalent to calling set_val on each pair in order followed by the kwargs, later entries winning; if one entry is rejected, exactly the entries before it have been applied and the exception propagates.", "quantifier": "all containers, all finite item lists, every failure position", "why_tests_cant": "Partial application on failure depends on failure position within an arbitrary list.", "anchors": ["aviary/utils/named_values.py:200-251"]}
{"id": "C04", "title": "AviaryValues only ever stores type- and unit-conforming entries", "statement": "Starting from an empty AviaryValues, after any sequence of set_val calls (including rejected ones) every stored key that has metadata holds a value whose (cast) type is accepted by the metadata `types` and whose units are compatible with the metadata units; rejected calls leave the container unchanged and raise TypeError/ValueError as documented.", "quantifier": "all metadata dictionaries, all sequences of set_val calls", "why_tests_cant": "An invariant over all histories and metadata tables; unit tests check a few variables.", "anchors": ["aviary/utils/aviary_values.py:20-100", "aviary/utils/utils.py:145-259"]}
{"id": "C05", "title": "wrapped_convert_units preserves shape, container type and missing entries", "statement": "wrapped_convert_units((val, from), to) returns None for None and otherwise the same kind of container, of the same length, with every numeric entry converted to the new units and every None entry kept, for lists, tuples and arrays; converting from->to->from returns the original value.", "quantifier": "all nested list/tuple structures of any depth and length", "why_tests_cant": "Unbounded nesting and lengths.", "anchors": ["aviary/utils/utils.py:31-71"]}
{"id": "C06", "title": "enum_setter maps every element of its argument", "statement": "enum_setter turns an Enum / int / str (name or value) \u2014 or each element of a list of them \u2014 into the corresponding Enum member of the variable's declared enum class, returning a list of the same length for list input, and raises for unknown names.", "quantifier": "all lists of names/values of any length and all enums", "why_tests_cant": "The only test uses single-element input; behaviour for longer lists is unbounded.", "anchors": ["aviary/utils/utils.py:74-142"]}
{"id": "C07", "title": "Merging metadata dictionaries is a conflict-checked union", "statement": "merge_meta_data([d1..dn]) either raises ValueError, exactly when two of the dictionaries hold different metadata for the same key, or returns a dictionary whose key set is the union of the inputs' and which agrees with every input on that input's keys. The result does not depend on the order of the dictionaries and no input is modified.", "quantifier": "all lists of dictionaries of any size", "why_tests_cant": "Order-independence over all permutations and dictionary sizes cannot be sampled.", "anchors": ["aviary/utils/merge_variable_metadata.py:4-112"]}
{"id": "C08", "title": "Merging variable hierarchies keeps every variable of every input and leaves the inputs alone", "statement": "merge_hierarchies([H1..Hn]) returns a hierarchy containing every attribute path of every input with its value, raising ValueError when two inputs give different values to the same attribute path, and does not change any input hierarchy.", "quantifier": "all nested class trees of any depth, any number of hierarchies", "why_tests_cant": "Unbounded nesting; aliasing between result and inputs is only visible by comparing inputs before/after.", "anchors": ["aviary/utils/merge_hierarchies.py:6-208", "aviary/utils/compare_hierarchies.py:5-188"]}
{"id": "C09", "title": "Metadata registration never silently overwrites", "statement": "add_meta_data(key, meta_data, ...) raises ValueError and changes nothing if key is already registered (with unique checking on), otherwise adds exactly one entry; update_meta_data raises ValueError and changes nothing if key is missing, otherwise changes only the listed fields of that one entry. Registered entries always carry units (None becomes 'unitless') and any number of registrations leaves all other entries untouched.", "quantifier": "all sequences of add/update calls", "why_tests_cant": "Non-interference across arbitrary registration sequences.", "anchors": ["aviary/utils/develop_metadata.py:1-224"]}
{"id": "C10", "title": "Input-deck lines are parsed to the values written in them", "statement": "For a csv aircraft deck line `name, v1, ..., vn, units` parse_inputs stores under `name` the numbers v1..vn (ints stay ints, a single value is not wrapped, booleans are recognised case-insensitively) with the units given, ignoring text after '#', blank cells and surrounding blanks; lines naming unknown variables do not change the stored values.", "quantifier": "all lines of any length", "why_tests_cant": "Text grammar over unbounded strings.", "anchors": ["aviary/utils/process_input_decks.py:132-218", "aviary/utils/functions.py:94-129"]}
{"id": "C11", "title": "CSV data files: columns are attributed to the headers above them", "statement": "read_data_file returns for each requested header the numbers that stand in that header's column of the file, in row order; write_data_file followed by read_data_file gives back the same names, units, input/output labels and columns.", "quantifier": "all tables of any width and height", "why_tests_cant": "Width/height unbounded; column attribution fails only for particular header configurations.", "anchors": ["aviary/utils/csv_data_file.py:17-340"]}
{"id": "C12", "title": "Main and reserve phases are separated without loss or reordering", "statement": "separate_reserve_phases(info) returns ([main],[reserve]) where each phase with user_options appears in exactly one list, in the order of the dictionary, main iff reserve is absent or False; it raises ValueError exactly when some main phase follows a reserve phase, so on success main ++ reserve is the phase order.", "quantifier": "all phase dictionaries of any size", "why_tests_cant": "All orders of all lengths.", "anchors": ["aviary/mission/utils.py:5-59"]}
{"id": "C13", "title": "Passenger bookkeeping in preprocess_crewpayload is consistent", "statement": "After preprocess_crewpayload succeeds with FLOPS mass, NUM_PASSENGERS equals the sum of the first, business and economy class counts for both the as-flown and design configurations; class counts beat a given total, a lone total becomes economy class, and a configuration without any information copies the other one. With GASP only the totals are used, with the same copy rule.", "quantifier": "all combinations of given/missing passenger counts, any non-negative numbers", "why_tests_cant": "2^8 presence combinations times unbounded counts.", "anchors": ["aviary/utils/preprocessors.py:193-330"]}
{"id": "C14", "title": "Crew, attendants and baggage defaults follow the documented thresholds", "statement": "preprocess_crewpayload fills missing flight attendants, galley crew, flight crew and baggage mass from the number of design passengers / range by threshold rules: attendants 0 for 0 pax, 1 below 51, else pax//40+1; they are monotone in passengers, and user-given values are never overwritten.", "quantifier": "all passenger counts and ranges", "why_tests_cant": "Monotonicity is a statement about all pairs.", "anchors": ["aviary/utils/preprocessors.py:530-641"]}
{"id": "C15", "title": "Engine mount counts add up", "statement": "After preprocess_propulsion, for each engine model NUM_ENGINES = NUM_WING_ENGINES + NUM_FUSELAGE_ENGINES, whatever subset of the three the user gave, or an exception is raised.", "quantifier": "all counts and presence combinations, any number of engine models", "why_tests_cant": "Unbounded counts; failing combinations are sparse.", "anchors": ["aviary/utils/preprocessors.py:893-968"]}
{"id": "C16", "title": "GASP cargo preprocessing is idempotent and respects the cargo limits", "statement": "Running preprocess_crewpayload on its own output changes nothing, and after it cargo mass \u2264 max cargo mass.", "quantifier": "all cargo inputs and problem types", "why_tests_cant": "Idempotence quantifies over all reachable preprocessed states.", "anchors": ["aviary/utils/preprocessors.py:397-528"]}
{"id": "C17", "title": "Packing engine-deck data into the structured array keeps every data point", "statement": "EngineDeck._count_data/_pack_data place the points of a sorted deck in the (Mach, altitude, throttle) array such that reading entry (i,j,k) below the recorded counts returns the deck's points in order: nothing is lost, duplicated or shifted.", "quantifier": "all sorted decks of any size and shape", "why_tests_cant": "Depends on group sizes; any deck shape.", "anchors": ["aviary/subsystems/propulsion/engine_deck.py:1577-1712"]}
{"id": "C18", "title": "Throttle normalisation maps each deck's throttle range onto [0,1]", "statement": "After normalisation every throttle lies in [0,1], order is preserved, the largest throttle (globally or per flight condition) maps to 1 and the smallest to 0 (or its required value), for throttle as well as hybrid throttle.", "quantifier": "all non-constant throttle columns", "why_tests_cant": "All column contents.", "anchors": ["aviary/subsystems/propulsion/engine_deck.py:1409-1534", "aviary/subsystems/propulsion/engine_deck.py:1726-1754"]}
{"id": "C19", "title": "Reference thrust, scaled thrust and scale factor stay consistent", "statement": "After EngineDeck._set_reference_thrust, SCALED_SLS_THRUST = SCALE_FACTOR \u00d7 REFERENCE_SLS_THRUST (within the documented tolerance), for every combination of user-specified values, or inconsistent input is flagged/overridden as documented.", "quantifier": "all presence combinations and real values", "why_tests_cant": "Decision tree over reals.", "anchors": ["aviary/subsystems/propulsion/engine_deck.py:1275-1407"]}
{"id": "C20", "title": "Engine decks missing required variables are rejected", "statement": "EngineDeck._check_data raises when any variable in required_variables is absent from the deck and never raises for missing variables otherwise; computed thrust consistency is checked in the documented direction (raises only when gross thrust \u2212 ram drag disagrees with net thrust).", "quantifier": "all sets of provided and required variables, all data columns", "why_tests_cant": "All subsets.", "anchors": ["aviary/subsystems/propulsion/engine_deck.py:419-556"]}
{"id": "C21", "title": "smooth_max / smooth_min are safe bounds with exact derivatives", "statement": "smooth_max(x,b,mu) \u2265 max(x,b) and \u2264 max(x,b)+log 2/mu; smooth_min mirrors it; d_smooth_max / d_smooth_min are the true derivatives in x everywhere, and lie in [0,1].", "quantifier": "all real x, b and mu > 0", "why_tests_cant": "Inequalities over all reals.", "anchors": ["aviary/utils/math.py:102-175"]}
{"id": "C22", "title": "Smooth step / integer functions have exact derivatives and correct limits", "statement": "sigmoidX lies in [0,1], equals 1/2 at x0, is monotone for mu>0 and dSigmoidXdx is its derivative; sin_int agrees with x at integers and dydx_sin_int is its derivative; sin_int4/dydx_sin_int4 likewise; smooth_int_tanh and d_smooth_int_tanh likewise away from integers.", "quantifier": "all real x, x0, mu", "why_tests_cant": "Continuum of inputs.", "anchors": ["aviary/utils/math.py:8-99", "aviary/utils/math.py:178-239"]}
{"id": "C23", "title": "AtmosphereComp partials are the true altitude derivatives", "statement": "For every altitude strictly inside a table bin, each partial returned by AtmosphereComp.compute_partials equals the derivative of the corresponding compute output with respect to the altitude input, for geometric and geopotential altitude and any temperature offset.", "quantifier": "all altitudes, tables and offsets with positive T, P, rho", "why_tests_cant": "check_partials samples a few altitudes with standard tables at zero offset.", "anchors": ["aviary/subsystems/atmosphere/atmosphere.py:190-336"]}
{"id": "C24", "title": "Airspeed conversions form a consistent triangle with exact partials", "statement": "FlightConditions yields the same (TAS, EAS, Mach, q) whichever of TAS / EAS / Mach is the given input, q = \u00bd\u03c1TAS\u00b2 in all modes, and compute_partials equals the true derivatives for every mode.", "quantifier": "all positive densities, sound speeds and speeds", "why_tests_cant": "Round-trips over reals.", "anchors": ["aviary/subsystems/atmosphere/flight_conditions.py:177-252"]}
{"id": "C25", "title": "Throttle allocation conserves aggregate throttle", "statement": "For every node, the throttles of all engine types computed by ThrottleAllocator sum to the aggregate throttle, in every allocation mode; each engine's throttle is in [0, aggregate] when allocations are non-negative and sum \u2264 1, and compute_partials equals the true Jacobian.", "quantifier": "any number of nodes and engine types", "why_tests_cant": "Unbounded number of engines/nodes.", "anchors": ["aviary/subsystems/propulsion/throttle_allocation.py:110-165"]}
{"id": "C26", "title": "EngineScaling partials are exact and scaling is linear", "statement": "EngineScaling.compute scales thrust-like variables linearly with SCALE_FACTOR, fuel flow by the FLOPS relation with sub/supersonic switch, and compute_partials equals the true derivatives away from Mach dependence; scale factor 1 with default terms is the identity (up to sign for fuel flow).", "quantifier": "all reals, any number of nodes", "why_tests_cant": "Derivative over reals; only a few points tested.", "anchors": ["aviary/subsystems/propulsion/engine_scaling.py:103-270", "aviary/subsystems/propulsion/engine_sizing.py:30-53"]}
{"id": "C27", "title": "Fuel accounting closes", "statement": "In FuelSummationGroup, with all constraints satisfied, total fuel = mission burn + reserve fuel, reserve = margin% \u00d7 mission burn + additional + reserve-phase burn, and excess capacity \u2265 0 is equivalent to total fuel + unusable \u2264 capacity; block fuel = mission fuel + taxi-in fuel.", "quantifier": "all real masses and margins; with and without reserve phases", "why_tests_cant": "Identity over all values and option combinations.", "anchors": ["aviary/subsystems/energy/fuel_summation.py:29-187"]}
{"id": "C28", "title": "build_data_interpolator attributes table columns to the right variables", "statement": "For structured interpolation the training data handed to the interpolator for each output is that output's own column, arranged on the grid spanned by the sorted unique values of the independent variables, regardless of the column order of the input table.", "quantifier": "all tables that form a full grid, any column order", "why_tests_cant": "All grids and column orders.", "anchors": ["aviary/utils/data_interpolator_builder.py:100-288"]}
{"id": "C29", "title": "Derived option tables never loop and resolve deterministically", "statement": "update_dependent_options(options, table) sets each dependent option to the value prescribed by the declared relation between its controlling option and the bounds; options not named as dependents keep their values, and an entry with an unknown relation must not set anything.", "quantifier": "all option values and dependency lists", "why_tests_cant": "All option values.", "anchors": ["aviary/utils/process_input_decks.py:225-301"]}
{"id": "C30", "title": "Initial guesses respect fraction/time/rate heuristics", "statement": "initialization_guessing resolves each guess by the documented unit heuristics (fractions \u2264 1 of a reference, hours versus minutes, reserve fuel sign conventions) and always leaves reserves \u2265 0 and climb guesses finite and within their clip bounds.", "quantifier": "all guess dictionaries", "why_tests_cant": "Real-valued thresholds.", "anchors": ["aviary/utils/process_input_decks.py:304-476"]}
{"id": "C31", "title": "Copies of a NamedValues do not share state with the original", "statement": "NamedValues.copy() and deepcopy produce a container with the same content; later set_val/delete/clear/update calls on either one are not visible through the other.", "quantifier": "for all containers and all later operation sequences on either object", "why_tests_cant": "Aliasing only shows for particular interleavings of later writes; the repo tests never write to both objects after copying.", "anchors": ["aviary/utils/named_values.py:253-310"]}
{"id": "C32", "title": "Verbosity given in the deck or by the caller ends up in the options", "statement": "create_vehicle stores in Settings.VERBOSITY the verbosity argument when one is given, otherwise the value written in the input deck, otherwise the documented default.", "quantifier": "for all decks, all verbosity arguments including None", "why_tests_cant": "The two sources interact only when the deck itself sets verbosity; the tests pass decks without a verbosity line.", "anchors": ["aviary/utils/process_input_decks.py:47-127"]}
{"id": "C33", "title": "Fuel capacity inputs are checked for consistency", "statement": "preprocess_fuel_capacities with FLOPS raises exactly when all three tank capacities are given and do not add up to the given total, or when some are missing and the given ones already exceed the total; it never changes a value the user gave and only fills missing fuselage/auxiliary capacities with 0 when no total is given.", "quantifier": "for all subsets of the four capacities and all values", "why_tests_cant": "Sixteen presence patterns times orderings of values; tests use one or two.", "anchors": ["aviary/utils/preprocessors.py:644-723"]}
{"id": "C34", "title": "Engine options are vectorised one entry per engine model", "statement": "preprocess_propulsion stores for every engine variable a vector with one entry per engine model (one sub-array per engine model for array-valued variables): the value of the engine model if it has one, else the corresponding value of aviary_options, else the metadata default.", "quantifier": "for all numbers of engine models, all presence patterns and array lengths", "why_tests_cant": "Misalignment only appears for particular mixes of presence and array length.", "anchors": ["aviary/utils/preprocessors.py:756-872"]}
{"id": "C35", "title": "Thrust bookkeeping of engine decks", "statement": "After EngineDeck._check_data the THRUST column is the given net thrust (or gross thrust minus ram drag) plus tailpipe thrust, and the helper variables are no longer engine variables.", "quantifier": "for all decks and presence combinations", "why_tests_cant": "All presence combinations and column contents.", "anchors": ["aviary/subsystems/propulsion/engine_deck.py:419-556"]}
{"id": "C36", "title": "Ignoring negative thrust keeps exactly the other rows", "statement": "With IGNORE_NEGATIVE_THRUST, _check_data keeps exactly the rows with non-negative thrust, the same rows in every column, in order.", "quantifier": "for all decks", "why_tests_cant": "All row patterns.", "anchors": ["aviary/subsystems/propulsion/engine_deck.py:542-556"]}
{"id": "C37", "title": "Generated flight idle points obey the user limits", "statement": "A generated flight idle point has thrust = fraction \u00d7 maximum thrust of its flight condition, other variables linearly extrapolated to it and limited to the user fractions of their value at maximum throttle; no point is generated where thrust is already at or below the tolerance.", "quantifier": "for all flight conditions, columns and fractions", "why_tests_cant": "All numbers of points per flight condition, including fewer than the largest.", "anchors": ["aviary/subsystems/propulsion/engine_deck.py:558-765"]}
{"id": "C38", "title": "Mass statement adds up", "statement": "Running the FLOPS (standard and alternate method) or GASP mass summation group once gives an empty, operating, zero-fuel and useful-load mass in which every leaf mass is counted exactly once (nacelles once per engine), the reported group masses add up to the empty mass, and a second run changes nothing.", "quantifier": "all leaf masses, margin scalers, engine counts per type (any number of types), both FLOPS methods", "why_tests_cant": "The sums are spread over a dozen components wired by name promotion; a test checks a few aircraft, not that each mass enters exactly once for all values, nor that the component order needs no second sweep.", "anchors": ["aviary/subsystems/mass/flops_based/mass_summation.py:9-476", "aviary/subsystems/mass/flops_based/empty_margin.py:7-31", "aviary/subsystems/mass/gasp_based/mass_summation.py:8-287"]}
{"id": "C39", "title": "Atmosphere tables are well formed", "statement": "In every shipped atmosphere data file the altitudes increase strictly, each coefficient table has one row per bin, no altitude whatsoever (inside or outside the range) produces a row index out of range, and the sea level density returned by get_atmosphere_data is the density the component computes at altitude zero.", "quantifier": "all 13 data files, all real altitudes", "why_tests_cant": "Tests evaluate the tables at a handful of altitudes; they cannot cover every bin of 13 files with up to 690 points, nor altitudes outside the range.", "anchors": ["aviary/subsystems/atmosphere/data", "aviary/subsystems/atmosphere/utils/get_atmosphere_data.py:28-71", "aviary/subsystems/atmosphere/atmosphere.py:210-214"]}
{"id": "C40", "title": "Temperature, pressure and density stay positive inside the table range", "statement": "For every shipped atmosphere and every altitude between the first and the last table altitude, temperature, pressure and density are positive, so speed of sound, viscosity and density correction are defined and all altitude partials are the true derivatives.", "quantifier": "all 13 data files, all real altitudes in the range of the file, all non-negative temperature offsets, geometric or geopotential altitude", "why_tests_cant": "A cubic can dip below zero between two positive table points; sampling a grid of altitudes can miss it.", "anchors": ["aviary/subsystems/atmosphere/data", "aviary/subsystems/atmosphere/atmosphere.py:190-249"]}
{"id": "C41", "title": "Pressure and density never rise with altitude; the slope table matches the temperature table", "statement": "For every shipped atmosphere, pressure and density do not increase with altitude inside the table range, and the separate slope table used for dsos_dh equals the slope of the temperature table.", "quantifier": "all data files, all pairs of altitudes in range", "why_tests_cant": "Monotonicity over a continuum and agreement of two independent interpolants cannot be established by sampling.", "anchors": ["aviary/subsystems/atmosphere/data", "aviary/subsystems/atmosphere/utils/build_akima_coefs.py:75-130", "aviary/subsystems/atmosphere/atmosphere.py:216-244"]}
{"id": "C42", "title": "Override and promotion of static outputs", "statement": "For every set of components, user inputs and external outputs: override_aviary_vars promotes an aircraft/mission output under its own name exactly if neither the user nor an external subsystem gives it and it is not owned by the other legacy code; external outputs and user data get the two override names, external taking precedence; the returned list names exactly the outputs replaced by user data, and an input default is set exactly for those read by some system. promote_aircraft_and_mission_vars covers exactly the mission:/aircraft:/dynamic: variables, and together no variable is promoted both by a core component and an external subsystem.", "quantifier": "all lists of components, outputs, inputs and external subsystems", "why_tests_cant": "Tests build a few fixed groups; the number and interleaving of overridden, external and plain outputs is unbounded.", "anchors": ["aviary/variable_info/functions.py:280-395", "aviary/utils/functions.py:132-169", "aviary/core/static_group.py"]}
{"id": "C43", "title": "Trajectory parameters reach the right phases", "statement": "For every collection of per-phase external parameters and every list of core mission variables, setup_trajectory_params adds each external parameter exactly once, targeting exactly the phases that list it with the arguments of the first; each core hierarchy variable that is no option is added once, not shadowing an external parameter, and targets every phase.", "quantifier": "all phase lists, parameter dictionaries and variable lists", "why_tests_cant": "Missions with external parameters in a strict subset of the phases are rare in tests; the shadowed loop variable only shows there.", "anchors": ["aviary/variable_info/functions.py:398-475"]}
{"id": "C44", "title": "Extraction of options and per-engine model options", "statement": "For all inputs and metadata, extract_options returns exactly the set variables flagged as options, with the stored value, and with the stored units exactly if the metadata has units. setup_model_options gives the systems of engine number j entry j of every set engine option, and fails exactly if an entry is missing.", "quantifier": "all inputs, metadata tables, engine lists and names", "why_tests_cant": "Engine names in tests are few and never prefixes of each other; metadata has hundreds of entries.", "anchors": ["aviary/variable_info/functions.py:496-531", "aviary/variable_info/functions.py:534-611"]}
{"id": "C45", "title": "AtmosphereComp outputs follow table, gas law and geopotential relation", "statement": "For every strictly increasing table and every altitude, AtmosphereComp looks up the bin that contains the geopotential altitude (first/last bin outside the table), evaluates its cubic at the distance to the lower point and adds the offset to temperature only; if the table obeys the ideal gas law at an altitude, the outputs obey it at the offset temperature; sos**2 = K T; Sutherland relation; 1/z = 1/h + 1/R0 with z increasing and below h.", "quantifier": "all tables, altitudes, offsets and constants", "why_tests_cant": "Tests compare a handful of altitudes with stored values of one table.", "anchors": ["aviary/subsystems/atmosphere/atmosphere.py:190-249"]}
{"id": "C46", "title": "File lookup priority", "statement": "For every file system state, get_path returns the first existing path among: as given, below the working directory, below the package, a models entry; get_model prefers the exact path, then the first entry with the same file name, then the first .csv with the same stem, then the first with the same stem, and raises FileNotFoundError exactly if there is none. Every returned path exists; stem and suffix recompose to the name.", "quantifier": "all file systems, folder listings and requested paths", "why_tests_cant": "Tests run in one checkout with one folder listing.", "anchors": ["aviary/utils/functions.py:176-310"]}
{"id": "C47", "title": "round_it keeps the requested significant digits", "statement": "For every number and digit count: the result is the multiple of the last digit nearest to the input, within half a unit; rounding again changes nothing; zero stays zero; without a digit count the result has two decimal places.", "quantifier": "all rational numbers and digit counts", "why_tests_cant": "Rounding fails at decade boundaries and for signs, which a few samples miss.", "anchors": ["aviary/utils/utils.py:262-297"]}
{"id": "C48", "title": "Propeller table interpolation passes through its points with continuous slope", "statement": "For every table of at least four points with strictly increasing abscissas, _unint returns the table value at each point, the end value and flag 1 or 2 outside, flag 0 inside; between points it is the blend of the two neighbouring parabolas; the value is continuous everywhere and continuously differentiable inside the table; it reproduces every quadratic exactly.", "quantifier": "all tables with at least four strictly increasing abscissas, all arguments", "why_tests_cant": "Continuity of value and slope is about every point of an interval and every table; tests compare stored values.", "anchors": ["aviary/subsystems/propulsion/propeller/hamilton_standard.py:12-78"]}
{"id": "C49", "title": "Bivariate propeller table interpolation", "statement": "For every well formed table, _biquad equals the one-dimensional interpolation applied first along x for each of the y columns and then along y, with both arguments clamped to the table; for tables without y it is the one-dimensional interpolation; at grid points it returns the stored value; the limit flag is the x flag plus three times the y flag.", "quantifier": "all tables with at least four points per axis, all arguments", "why_tests_cant": "Index arithmetic in the packed table fails only for particular sizes and positions.", "anchors": ["aviary/subsystems/propulsion/propeller/hamilton_standard.py:81-231"]}
{"id": "C50", "title": "Propeller input checks", "statement": "PreHamiltonStandard raises AnalysisError exactly if the diameter or some node of tip speed, speed of sound or density is not positive or some shaft power is negative.", "quantifier": "all inputs", "why_tests_cant": "Sign errors of single nodes are not in the test set.", "anchors": ["aviary/subsystems/propulsion/propeller/hamilton_standard.py:535-552"]}
{"id": "C51", "title": "Propeller tables meet the requirements of the interpolation", "statement": "Every abscissa row used by HamiltonStandard has at least four strictly increasing entries in the part used and ordinate rows at least as long; thrust increases with blade angle in every row. For every advance ratio in [0,5] and design lift coefficient in [0.3,0.8] the selected window of four rows encloses it.", "quantifier": "all table rows, all advance ratios and lift coefficients in range", "why_tests_cant": "A single misordered digit changes results only near that entry.", "anchors": ["aviary/subsystems/propulsion/propeller/hamilton_standard.py:246-459", "aviary/subsystems/propulsion/propeller/hamilton_standard.py:699-733"]}
{"id": "C52", "title": "Thrust coefficient of the propeller", "statement": "For every node input: the coefficient accepted for a blade table is non-negative and, unless zero, its adjusted value is within 0.1 percent of the interpolated baseline; an affine residual is always solved; below the critical Mach number the tip loss factor is exactly 1; 2, 4, 6, 8 blades use their own table, other odd counts are interpolated or clamped, larger even counts raise IndexError; the reference propeller reproduces every published table point.", "quantifier": "all inputs, all numbers of blades", "why_tests_cant": "Tests compare a few stored operating points.", "anchors": ["aviary/subsystems/propulsion/propeller/hamilton_standard.py:632-941"]}
{"id": "C53", "title": "Compressibility table shape and blade count", "statement": "The tip loss factor table never rises with Mach excess and never falls with thrust coefficient, all entries in (0,1]; a blade count without table is refused.", "quantifier": "all table entries, all blade counts", "why_tests_cant": "Only a check of every entry finds a mistyped one.", "anchors": ["aviary/subsystems/propulsion/propeller/hamilton_standard.py:440-458", "aviary/subsystems/propulsion/propeller/hamilton_standard.py:738-747"]}
{"id": "C54", "title": "preprocess_options keeps user values, fills the documented defaults and can be repeated", "statement": "For every set of options: preprocess_options succeeds exactly if a mass method is given (and no reference value is an empty array); a value given by the user is kept, except a reference aspect ratio or thickness whose first entry is zero, which becomes the actual value if there is one; the excrescence drag, layout, seat width, verbosity, atmosphere, gravity and density defaults are the documented ones, gravity and density belonging to the atmosphere in use; a second run changes nothing; replaced seat widths are announced from BRIEF on and nothing is announced at QUIET.", "quantifier": "all combinations of present and missing options, all values, all verbosity levels", "why_tests_cant": "14 interacting presence tests give thousands of combinations; tests set a handful", "anchors": ["aviary/utils/preprocessors.py:26-189"]}
{"id": "C55", "title": "Announced aircraft type is recorded and gravity follows the atmosphere", "statement": "When preprocess_options announces that it sets Aircraft.Design.TYPE to TRANSPORT, the option holds that value afterwards; when the atmosphere model is changed and preprocess_options runs again, the gravity option is that of the new planet unless the user set it.", "quantifier": "all options", "why_tests_cant": "needs two runs on the same options object with a change in between; no test does this", "anchors": ["aviary/utils/preprocessors.py:102-107", "aviary/utils/preprocessors.py:172-189"]}
{"id": "C56", "title": "Mission equations of motion are mutually consistent", "statement": "Energy-state required thrust inverts the specific energy rate; climb and ground speed complete the speed triangle in the energy-state, steady-climb and flight-path models; energy rate and altitude rate agree with the full equations of motion; detailed takeoff forces, accelerations and rates reproduce the flight path equations; velocity and path-angle rates are the time derivatives of speed and angle; stall speed carries the weight; ground friction never accelerates in the solved ground roll model.", "quantifier": "all real states (mass, thrust, lift, drag, speed, angles) under the stated sign and non-zero conditions", "why_tests_cant": "Each component is tested against stored numbers on its own; agreement between models holds for a continuum of states and is not asserted by any test.", "anchors": ["aviary/mission/ode/specific_energy_rate.py:50-90", "aviary/mission/ode/altitude_rate.py:50-90", "aviary/mission/energy_state/ode/required_thrust.py:50-90", "aviary/mission/energy_state/ode/takeoff_eom.py:1-900", "aviary/mission/two_dof/ode/flight_eom.py:1-250", "aviary/mission/two_dof/ode/flight_path_eom.py:1-350", "aviary/mission/solved_two_dof/ode/gamma_comp.py:1-80"]}
{"id": "C57", "title": "Steady climb keeps its speed and ground friction opposes motion", "statement": "The climb that EOMRates treats as steady has zero acceleration in the full equations of motion, and larger rolling friction never gives larger acceleration in FlightPathEOM.", "quantifier": "all real states with positive weight and admissible excess thrust", "why_tests_cant": "Tests check each component against its own stored output and never feed one model the state of the other.", "anchors": ["aviary/mission/two_dof/ode/flight_eom.py:1-250", "aviary/mission/two_dof/ode/flight_path_eom.py:1-350", "aviary/mission/solved_two_dof/ode/ground_roll_eom.py:1-250"]}
{"id": "C58", "title": "GASP wing geometry is that of a trapezoidal wing", "statement": "Centre chord, average (mean aerodynamic) chord, leading edge sweep, root chord, average thickness and exposed area computed by WingParameters and ExposedWing are the integrals, slopes and values of the trapezoidal chord distribution of the same area, span and taper; WingSize meets wing loading and aspect ratio; the blended mounting-height function is differentiable on the whole range, circle-shaped in the middle, between 0 and 1/2, so the exposed area lies between 0 and the wing area.", "quantifier": "all real area, span, taper, sweep, diameter and mounting height values with the stated signs", "why_tests_cant": "Geometry tests compare with stored GASP numbers for a handful of aircraft; that a formula is an integral over the planform is a statement about all of them.", "anchors": ["aviary/subsystems/geometry/gasp_based/wing.py:1-700", "aviary/subsystems/geometry/flops_based/wing.py:1-80"]}
{"id": "C59", "title": "Exposed part of a buried nacelle", "statement": "PercentNotInFuselage accepts exactly the fractions between 0 and 1, for every engine type, is 1 at 0 and 0 at 1, equals the circular segment formula in the middle, and its partial is the derivative everywhere inside the range, also at the joints of the pieces.", "quantifier": "all real fractions and all numbers of engine types", "why_tests_cant": "The joints have measure zero and a check of partials at sampled points cannot see a kink there; tests use a single engine type.", "anchors": ["aviary/subsystems/geometry/gasp_based/engine.py:8-157"]}
{"id": "C60", "title": "Declared partials of geometry components are the derivatives", "statement": "For each of the 24 geometry component variants listed, every entry that compute_partials (or declare_partials with a value) supplies equals the derivative of the output with respect to that input, and inputs without a declared partial do not influence the output.", "quantifier": "all real inputs at which the branch conditions are strict and the denominators, logarithm and root arguments satisfy the stated hypotheses", "why_tests_cant": "check_partials compares with complex step at a few points per component; it does not cover the other branches nor the whole range of inputs.", "anchors": ["aviary/subsystems/geometry/flops_based/characteristic_lengths.py:1-642", "aviary/subsystems/geometry/flops_based/fuselage.py:1-797", "aviary/subsystems/geometry/flops_based/prep_geom.py:1-266", "aviary/subsystems/geometry/flops_based/wetted_area_total.py:1-1001", "aviary/subsystems/geometry/flops_based/wing.py:1-41", "aviary/subsystems/geometry/gasp_based/engine.py:1-386", "aviary/subsystems/geometry/gasp_based/fuselage.py:1-1154", "aviary/subsystems/geometry/gasp_based/wing.py:1-1980", "aviary/subsystems/geometry/gasp_based/empennage.py:1-276", "aviary/subsystems/geometry/gasp_based/non_dimensional_conversion.py:1-146"]}
{"id": "C61", "title": "Declared partials of FLOPS mass components are the derivatives", "statement": "For each of the 42 FLOPS mass component variants listed, every entry that compute_partials (or declare_partials with a value) supplies equals the derivative of the output with respect to that input, and inputs without a declared partial do not influence the output.", "quantifier": "all real inputs at which the branch conditions are strict and the denominators, logarithm and root arguments satisfy the stated hypotheses", "why_tests_cant": "check_partials compares with complex step at a few points per component; it does not cover the other branches nor the whole range of inputs.", "anchors": ["aviary/subsystems/mass/flops_based/air_conditioning.py:1-103", "aviary/subsystems/mass/flops_based/apu.py:1-45", "aviary/subsystems/mass/flops_based/avionics.py:1-58", "aviary/subsystems/mass/flops_based/canard.py:1-57", "aviary/subsystems/mass/flops_based/cargo_containers.py:1-61", "aviary/subsystems/mass/flops_based/electrical.py:1-107", "aviary/subsystems/mass/flops_based/empty_margin.py:1-42", "aviary/subsystems/mass/flops_based/fin.py:1-67", "aviary/subsystems/mass/flops_based/fuel_capacity.py:1-216", "aviary/subsystems/mass/flops_based/fuel_system.py:1-117", "aviary/subsystems/mass/flops_based/furnishings.py:1-285", "aviary/subsystems/mass/flops_based/fuselage.py:1-385", "aviary/subsystems/mass/flops_based/horizontal_tail.py:1-110", "aviary/subsystems/mass/flops_based/hydraulics.py:1-183", "aviary/subsystems/mass/flops_based/instruments.py:1-73", "aviary/subsystems/mass/flops_based/landing_gear.py:1-290", "aviary/subsystems/mass/flops_based/landing_mass.py:1-73", "aviary/subsystems/mass/flops_based/nacelle.py:1-111", "aviary/subsystems/mass/flops_based/paint.py:1-31", "aviary/subsystems/mass/flops_based/passenger_service.py:1-121", "aviary/subsystems/mass/flops_based/surface_controls.py:1-159", "aviary/subsystems/mass/flops_based/unusable_fuel.py:1-161", "aviary/subsystems/mass/flops_based/vertical_tail.py:1-118", "aviary/subsystems/mass/flops_based/wing_common.py:1-460", "aviary/subsystems/mass/flops_based/crew.py:1-107", "aviary/subsystems/mass/flops_based/engine_controls.py:1-65", "aviary/subsystems/mass/flops_based/engine_oil.py:1-96"]}
{"id": "C62", "title": "Declared partials of GASP mass components are the derivatives", "statement": "For each of the 30 GASP mass component variants listed, every entry that compute_partials (or declare_partials with a value) supplies equals the derivative of the output with respect to that input, and inputs without a declared partial do not influence the output.", "quantifier": "all real inputs at which the branch conditions are strict and the denominators, logarithm and root arguments satisfy the stated hypotheses", "why_tests_cant": "check_partials compares with complex step at a few points per component; it does not cover the other branches nor the whole range of inputs.", "anchors": ["aviary/subsystems/mass/gasp_based/air_conditioning.py:1-273", "aviary/subsystems/mass/gasp_based/anti_icing.py:1-75", "aviary/subsystems/mass/gasp_based/avionics.py:1-84", "aviary/subsystems/mass/gasp_based/control.py:1-325", "aviary/subsystems/mass/gasp_based/crew.py:1-179", "aviary/subsystems/mass/gasp_based/electrical.py:1-64", "aviary/subsystems/mass/gasp_based/engine.py:1-605", "aviary/subsystems/mass/gasp_based/fixed.py:1-2226", "aviary/subsystems/mass/gasp_based/fuel.py:1-1365", "aviary/subsystems/mass/gasp_based/fuel_capacity.py:1-109", "aviary/subsystems/mass/gasp_based/instruments.py:1-119", "aviary/subsystems/mass/gasp_based/landing.py:1-240", "aviary/subsystems/mass/gasp_based/oxygen_system.py:1-71", "aviary/subsystems/mass/gasp_based/wing.py:1-812", "aviary/subsystems/mass/gasp_based/hydraulics.py:1-60"]}
{"id": "C63", "title": "Declared partials of aerodynamics components are the derivatives", "statement": "For each of the 25 aerodynamics component variants listed, every entry that compute_partials (or declare_partials with a value) supplies equals the derivative of the output with respect to that input, and inputs without a declared partial do not influence the output.", "quantifier": "all real inputs at which the branch conditions are strict and the denominators, logarithm and root arguments satisfy the stated hypotheses", "why_tests_cant": "check_partials compares with complex step at a few points per component; it does not cover the other branches nor the whole range of inputs.", "anchors": ["aviary/models/external_subsystems/simple_aero/simple_drag.py:1-101", "aviary/subsystems/aerodynamics/aero_common.py:1-55", "aviary/subsystems/aerodynamics/flops_based/drag.py:1-201", "aviary/subsystems/aerodynamics/flops_based/lift.py:1-134", "aviary/subsystems/aerodynamics/flops_based/premission_aero.py:1-324", "aviary/subsystems/aerodynamics/flops_based/tabular_aero_group.py:1-231", "aviary/subsystems/aerodynamics/gasp_based/common.py:1-384", "aviary/subsystems/aerodynamics/gasp_based/gasp_aero_coeffs.py:1-316", "aviary/subsystems/aerodynamics/gasp_based/gaspaero.py:1-2665", "aviary/subsystems/aerodynamics/gasp_based/interference.py:1-495", "aviary/subsystems/aerodynamics/gasp_based/table_based.py:1-698"]}
{"id": "C64", "title": "Declared partials of mission components are the derivatives", "statement": "For each of the 29 mission component variants listed, every entry that compute_partials (or declare_partials with a value) supplies equals the derivative of the output with respect to that input, and inputs without a declared partial do not influence the output.", "quantifier": "all real inputs at which the branch conditions are strict and the denominators, logarithm and root arguments satisfy the stated hypotheses", "why_tests_cant": "check_partials compares with complex step at a few points per component; it does not cover the other branches nor the whole range of inputs.", "anchors": ["aviary/mission/energy_state/ode/range_rate.py:1-69", "aviary/mission/energy_state/ode/required_thrust.py:1-78", "aviary/mission/energy_state/ode/takeoff_eom.py:1-877", "aviary/mission/energy_state/phases/simplified_landing.py:1-124", "aviary/mission/energy_state/phases/simplified_takeoff.py:1-357", "aviary/mission/ode/altitude_rate.py:1-76", "aviary/mission/ode/specific_energy_rate.py:1-85", "aviary/mission/solved_two_dof/ode/gamma_comp.py:1-66", "aviary/mission/solved_two_dof/ode/groundroll_eom.py:1-264", "aviary/mission/solved_two_dof/ode/unsteady_solved_flight_conditions.py:1-429", "aviary/mission/two_dof/ode/accel_eom.py:1-106", "aviary/mission/two_dof/ode/constraints/flight_constraints.py:1-206", "aviary/mission/two_dof/ode/flight_eom.py:1-174", "aviary/mission/two_dof/ode/flight_path_eom.py:1-393", "aviary/mission/two_dof/ode/landing_eom.py:1-851", "aviary/mission/two_dof/ode/taxi_eom.py:1-62", "aviary/mission/two_dof/ode/v_rotate_comp.py:1-78", "aviary/mission/energy_state/ode/landing_eom.py:1-544", "aviary/mission/solved_two_dof/ode/unsteady_solved_eom.py:1-384", "aviary/mission/two_dof/ode/takeoff_eom.py:1-445"]}
{"id": "C65", "title": "Declared partials of atmosphere, propulsion, battery and performance components are the derivatives", "statement": "For each of the 8 atmosphere, propulsion, battery and performance component variants listed, every entry that compute_partials (or declare_partials with a value) supplies equals the derivative of the output with respect to that input, and inputs without a declared partial do not influence the output.", "quantifier": "all real inputs at which the branch conditions are strict and the denominators, logarithm and root arguments satisfy the stated hypotheses", "why_tests_cant": "check_partials compares with complex step at a few points per component; it does not cover the other branches nor the whole range of inputs.", "anchors": ["aviary/models/external_subsystems/detailed_battery/model/battery_premission.py:1-175", "aviary/models/external_subsystems/detailed_battery/model/cell_comp.py:1-302", "aviary/subsystems/atmosphere/flight_conditions.py:1-252", "aviary/subsystems/energy/battery_sizing.py:1-64", "aviary/subsystems/performance/performance_premission.py:1-51", "aviary/subsystems/propulsion/engine_sizing.py:1-53", "aviary/models/external_subsystems/simple_aero/simple_drag.py:1-101", "aviary/subsystems/propulsion/propeller/hamilton_standard.py:1-1178", "aviary/subsystems/propulsion/propeller/propeller_performance.py:1-526"]}
{"id": "C66", "title": "Declared partials of the remaining translated components are the derivatives", "statement": "The same for the 34 component variants with an entry that is wrong or whose proof is missing.", "quantifier": "all real inputs at which the branch conditions are strict and the denominators, logarithm and root arguments satisfy the stated hypotheses", "why_tests_cant": "check_partials compares with complex step at a few points per component, often with scalers equal to one and in one branch only, which hides the missing factors.", "anchors": ["aviary/mission/solved_two_dof/ode/unsteady_solved_flight_conditions.py:1-429", "aviary/mission/two_dof/ode/landing_eom.py:1-851", "aviary/subsystems/aerodynamics/gasp_based/interference.py:1-495", "aviary/subsystems/geometry/gasp_based/fuselage.py:1-1154", "aviary/subsystems/geometry/gasp_based/strut.py:1-102", "aviary/subsystems/geometry/gasp_based/wing.py:1-1980", "aviary/subsystems/mass/flops_based/fuel_system.py:1-117", "aviary/subsystems/mass/flops_based/furnishings.py:1-285", "aviary/subsystems/mass/flops_based/hydraulics.py:1-183", "aviary/subsystems/mass/flops_based/wing_common.py:1-460", "aviary/subsystems/mass/gasp_based/control.py:1-325", "aviary/subsystems/mass/gasp_based/design_load.py:1-2213", "aviary/subsystems/mass/gasp_based/fixed.py:1-2226", "aviary/subsystems/mass/gasp_based/fuel.py:1-1365", "aviary/subsystems/mass/gasp_based/passenger_service.py:1-103", "aviary/subsystems/aerodynamics/flops_based/ground_effect.py:1-427", "aviary/subsystems/aerodynamics/flops_based/induced_drag.py:1-217", "aviary/subsystems/aerodynamics/gasp_based/gaspaero.py:1-2665", "aviary/subsystems/geometry/flops_based/wetted_area_total.py:1-1001"]}
{"id": "C67", "title": "GASP cabin masses: accepted inputs, crew tables and partials", "statement": "Flight attendants, lavatories and pilots never decrease with the number of passengers; the furnishing, oxygen and passenger service masses are defined for every passenger count and cabin, their partials are the derivatives, and the smooth furnishing mass blends the two formulas.", "quantifier": "all passenger counts, gross masses, cabin sizes and pressures (natural numbers and reals)", "why_tests_cant": "The unbound combinations (few passengers with a narrow cabin, light aircraft with few passengers) are not among the tested aircraft, and check_partials is run at one point of one branch.", "anchors": ["aviary/subsystems/mass/gasp_based/furnishings.py:11-420", "aviary/subsystems/mass/gasp_based/oxygen_system.py:29-75", "aviary/subsystems/mass/gasp_based/passenger_service.py:34-110"]}
{"id": "C68", "title": "Geopotential altitude conversion ends and is accurate", "statement": "convert_geopotential_altitude ends after at most six passes, its result solves the geopotential equation to within 6.1 cm and is never below the input, for every altitude it may be given; the geopotential height it inverts is the integral of relative gravity.", "quantifier": "all altitudes (reals); proved from 0 to 600000 ft", "why_tests_cant": "The fixed point iteration has no pass limit; tests run it on the altitudes of two engine decks.", "anchors": ["aviary/subsystems/propulsion/utils.py:81-133"]}
{"id": "C69", "title": "Phase option dictionaries keep declared units and survive a round trip", "statement": "Every stored option with declared units is a (value, units) pair in the declared units; setting one option leaves the others alone; reading a value back in any compatible unit gives the value that was set; to_phase_info followed by read gives the same options again; undeclared options are refused.", "quantifier": "all option declarations, values, unit libraries with nonzero factors and sequences of assignments", "why_tests_cant": "Tests set a handful of options with one unit each and never feed a dictionary back that was written out.", "anchors": ["aviary/utils/aviary_options_dict.py:8-167"]}
{"id": "C70", "title": "A written namelist deck is read back entry by entry", "statement": "parse_input_file reads every entry of every namelist of a deck exactly once, under the name of the namelist it is in and with its whole value list, ignores comments, blank lines and case, and stores the entries in the order of the file.", "quantifier": "all decks: any number of namelists, lines and entries", "why_tests_cant": "The tests convert four example decks and compare against recorded output, so lost or cut entries are recorded as correct.", "anchors": ["aviary/utils/fortran_to_aviary.py:187-297"]}
{"id": "C71", "title": "Deck entries are stored under the right Aviary variable and element", "statement": "process_and_store_data stores every deck entry under the Aviary variable whose metadata name it, indexed assignments in any order build the same list, units come from the metadata or the deck, and deprecated names are skipped and nothing else.", "quantifier": "all entries, metadata tables, indices and orders of assignment", "why_tests_cant": "The tests use the names of four decks; assignments out of order, other indices and names without namelist never occur there.", "anchors": ["aviary/utils/fortran_to_aviary.py:300-477"]}
{"id": "C72", "title": "Scalers of legacy decks become factors, fixed values or zero masses", "statement": "For every listed variable a scaler up to the limit (5 for FLOPS, 10 for GASP) is kept as a factor, a larger one becomes the mass or area itself with the right units, one of zero removes the weight, no other variable changes, and repeating the step changes nothing.", "quantifier": "all stored values and all lists of scaler variables that do not interfere; the FLOPS list is checked not to", "why_tests_cant": "Example decks contain few scalers and none of zero.", "anchors": ["aviary/utils/fortran_to_aviary.py:1356-1407", "aviary/utils/fortran_to_aviary.py:1412-1447"]}
{"id": "C73", "title": "GASP special cases give consistent options", "statement": "Design range and problem type, passenger classes, seats, strut and fold options, flap data, reserve fuel, volume margin and furnishings of a GASP deck are converted to consistent Aviary options or refused with a clear error.", "quantifier": "all numbers and problem types", "why_tests_cant": "The tests convert three GASP decks; each takes one path through the nested conditions.", "anchors": ["aviary/utils/fortran_to_aviary.py:480-833"]}
{"id": "C74", "title": "FLOPS special cases give consistent options", "statement": "Masses given as scalers, wing fuel, maximum lift coefficient, blended wing body stations, tail defaults, fuel flow factors and the removal of zero or negative entries of a FLOPS deck give consistent Aviary values and missing tail data come from the wing.", "quantifier": "all numbers and all combinations of missing entries", "why_tests_cant": "The example decks give all tail data, so the defaults never run.", "anchors": ["aviary/utils/fortran_to_aviary.py:987-1332"]}
{"id": "C75", "title": "Consecutive phases are joined", "statement": "For every consecutive pair of phases link_phases joins every state or time variable that both ends have exactly once: by a connection where the start is free, by a constraint where it is not, with the scaling of the phase that gives one; it joins nothing else, does not depend on the order of sets, and a trajectory that meets all joints is continuous.", "quantifier": "all lists of phases of every kind (analytic or not), all options, any number of processes", "why_tests_cant": "Tests run a few standard missions; pinned ends, several analytic phases in a row and other set orders never occur in them.", "anchors": ["aviary/core/aviary_group.py:944-1179"]}
{"id": "C76", "title": "Phase durations and targets are checked and passed on to the guesses", "statement": "Fixed durations and target distances must be positive, become the guess of the phase in its units, leave all other options alone and are stable under repetition; the tabular flag is set exactly when all phases use tables; geometry comes from one method exactly when aerodynamics and mass use it.", "quantifier": "all lists of phases, options, unit tables and methods", "why_tests_cant": "Tests use valid durations and one aerodynamic method for all phases.", "anchors": ["aviary/core/aviary_group.py:408-451", "aviary/core/aviary_group.py:485-510"]}
{"id": "C77", "title": "Time options, time guesses and the boundary check agree with the user options", "statement": "A given start or duration is fixed, bounds are passed on otherwise, reference values lie between the bounds, the default guess is the middle of the bounds, and the boundary check reports exactly the consecutive phases whose altitude or Mach number differ.", "quantifier": "all options, phase positions, numbers of processes and lists of phases", "why_tests_cant": "Tests use given guesses and matching phases, one process, and no open bounds.", "anchors": ["aviary/mission/energy_state_problem_configurator.py:153-224", "aviary/mission/energy_state_problem_configurator.py:250-289", "aviary/mission/energy_state_problem_configurator.py:521-532", "aviary/mission/two_dof_problem_configurator.py:201-307"]}
{"id": "C78", "title": "The objective follows the request and the problem type", "statement": "add_objective accepts exactly the known names (or the default of each problem type), sets one objective on the variable of that name, uses the reference value given and otherwise a default one, and its scaling decides whether more or less of it is better.", "quantifier": "all objective names, reference values, problem types, missions with and without reserve phases, all values of fuel, range and time", "why_tests_cant": "Tests use default objectives and positive references; whether an optimum is a minimum or a maximum cannot be seen from a run that converges.", "anchors": ["aviary/core/aviary_problem.py:664-786", "aviary/core/aviary_problem.py:1949-1978", "aviary/mission/utils.py:5-56"]}
{"id": "C79", "title": "Composite objectives are weighted sums of scaled terms", "statement": "add_composite_objective builds one term for each argument, with weights normalised to sum one and each output divided by its reference value; the adviser of multi-mission objectives normalises its weights and connects each mission with its own factor.", "quantifier": "all lists of arguments, weights, reference values and missions", "why_tests_cant": "Tests pass one or two arguments with positive weights.", "anchors": ["aviary/core/aviary_problem.py:854-1093"]}
{"id": "C80", "title": "Off-design missions carry the payload asked for", "statement": "run_off_design_mission sets passenger classes and cargo so that preprocessing gives the number of passengers asked for, defaults to the design numbers, refuses unknown problem types and puts the problem under a new name.", "quantifier": "all passenger and cargo options of both mass methods, all names in use", "why_tests_cant": "Tests fly one off-design mission with the passengers of the design.", "anchors": ["aviary/core/aviary_problem.py:1446-1640", "aviary/utils/preprocessors.py:193-641"]}
{"id": "C81", "title": "The payload-range table has the right corners", "statement": "run_payload_range flies the maximum payload, the economic, the full-tank and the ferry mission: gross masses stay within limits, the payload of the full-tank mission is the design payload scaled so that full tanks fit under the gross mass, and rows are ordered as ranges at payloads.", "quantifier": "all sized aircraft, tank capacities, payloads and outcomes of the missions", "why_tests_cant": "Each corner needs an optimisation; tests run one aircraft with all four points.", "anchors": ["aviary/core/aviary_problem.py:1657-1873"]}
{"id": "C82", "title": "A saved aircraft is reloaded unchanged", "statement": "save_results followed by _read_sizing_json gives back every input that the metadata accepts, in the same order and units: numbers, flags, texts and lists of the type of the variable unchanged, enum members by their name, arrays as lists of the same entries, the gross masses with the value of the mission, and the design gross mass in lbm added when it was no input.", "quantifier": "all containers with distinct names, all metadata, unit tables and values; all enum classes of the code", "why_tests_cant": "Tests save one sizing result and look at a few numbers; member names that equal values, lists of enums and empty lists never occur.", "anchors": ["aviary/core/aviary_problem.py:1875-1947", "aviary/core/aviary_problem.py:1981-2066", "aviary/variable_info/enums.py:4-294"]}
{"id": "C83", "title": "The masses of the mission reach the fuel summation", "statement": "The connections that the energy subsystem asks for bring the mass at the end of the last main phase, and with reserve phases the mass at the start of the first and the end of the last of them, to the fuel summation. So a mission that meets the mass residual constraint carries the fuel burned in the main mission, the margin of it, the additional fuel and the fuel burned in all reserve phases.", "quantifier": "all lists of distinct phase names, all margins, all mass histories", "why_tests_cant": "Benchmarks with reserves use the same two or three phases; a single reserve phase is never checked against its burned fuel.", "anchors": ["aviary/subsystems/energy/energy_builder.py:65-96", "aviary/core/aviary_group.py:1269-1286", "aviary/subsystems/energy/fuel_summation.py:29-187"]}
{"id": "C84", "title": "Bus variables of the pre mission", "statement": "add_pre_mission bus variables become exactly the parameters they name, in the phases they name or in all phases, each with exactly one connection from its source, and their post mission names are connected to the same source. Only missing units and unknown phases are refused.", "quantifier": "all lists of bus variables, all metadata and phase names", "why_tests_cant": "Tests have one bus variable in one phase.", "anchors": ["aviary/core/aviary_group.py:1181-1268"]}
{"id": "C85", "title": "Masses of external subsystems are summed", "statement": "The external mass is the sum of the masses that the external subsystems name.", "quantifier": "all lists of names and all values", "why_tests_cant": "Tests have one or two subsystems with different names.", "anchors": ["aviary/core/aviary_group.py:624-668"]}
{"id": "C86", "title": "Feasible points of the kinds of problems", "statement": "With the design variables and constraints of each kind of problem a point is feasible exactly when the documented conditions on gross mass, range, fuel and phases hold.", "quantifier": "all points, phase goals, target ranges and masses, the three mission methods", "why_tests_cant": "Tests run an optimizer to one feasible point; they do not see the points that are feasible and should not be.", "anchors": ["aviary/core/aviary_group.py:1288-1433", "aviary/core/aviary_group.py:793-942", "aviary/mission/energy_state_problem_configurator.py:291-369", "aviary/mission/two_dof_problem_configurator.py:369-407"]}
{"id": "C87", "title": "Range and time of a fuel burning cruise", "statement": "The range at every node is the sum of the Breguet ranges of the legs before it, it grows as fuel is burned, the elapsed time is the time that was flown, and every entry of the Jacobian matrices of range and time is the derivative.", "quantifier": "all numbers of nodes, all mass, flow and speed histories, every pair of node and input", "why_tests_cant": "Tests compare two or three node histories at constant speed with stored numbers; the sparse Jacobian is compared by complex step at that one point.", "anchors": ["aviary/mission/two_dof/ode/breguet_cruise_eom.py:10-249"]}
{"id": "C88", "title": "Range and time of an electric and of a simple cruise", "statement": "The range of an electric cruise is the sum of the ranges of the legs and follows the energy used, the distance of a simple cruise follows the speed and time, and every entry of the Jacobian matrices is the derivative.", "quantifier": "all numbers of nodes, all power, energy, speed and time histories, every pair of node and input", "why_tests_cant": "Tests use constant power and speed and compare with stored numbers; the partial derivative by the initial distance is not compared away from the first node.", "anchors": ["aviary/mission/two_dof/ode/breguet_cruise_eom.py:252-473", "aviary/mission/two_dof/ode/simple_cruise_eom.py:8-90"]}
{"id": "C89", "title": "Equations of motion of the detailed takeoff and landing", "statement": "The accelerations, speed rate and path angle rate of the detailed takeoff and landing are those of Newton's law for the forces on the aircraft: in the climb, the flare, on the glide slope and during the ground roll, where friction never pushes the aircraft forward.", "quantifier": "all masses, forces, path angles, speeds and angles of attack at a node, all friction coefficients", "why_tests_cant": "The tests compare each component with stored numbers at two nodes; the sign convention between the components is not tested, and friction with lift above weight never occurs in them.", "anchors": ["aviary/mission/energy_state/ode/landing_eom.py:16-540", "aviary/mission/energy_state/ode/takeoff_eom.py:95-870"]}
{"id": "C90", "title": "What a flight phase built from the options enforces", "statement": "On every trajectory that satisfies the phase built from the user options, the requested end values of states and controls, the bounds, the options no_descent and no_climb, the throttle limits, the required climb rate and all constraints of the user hold; the phase is refused exactly when a constraint is malformed; engine allocations start as an even split; scaling references are those asked for.", "quantifier": "all options, all lists of user constraints, all subsystems with any states, controls and constraints, all numbers of nodes and engine types, all trajectories", "why_tests_cant": "Tests run single missions and look at results; none combines a user constraint with the built-in limit of the same variable, and no test looks at trajectories that were not chosen by the optimizer.", "anchors": ["aviary/mission/phase_builder.py:362-604", "aviary/mission/flight_phase_builder.py:191-390", "aviary/utils/aviary_options_dict.py:148-424"]}
{"id": "C91", "title": "Initial guesses reach their variables", "statement": "Every guess of the user for a phase becomes the starting value of the variable it names, in its units, and nothing overrides it; unknown names are refused; without a guess the documented default is used; several values are spread evenly over the phase; fixed initial values are the ones fixed; the kind of variable a name stands for depends on the phase only.", "quantifier": "all dictionaries of guesses with any keys, values and units, all options, prefixes, phases, all sequences of registrations of guesses and builder types", "why_tests_cant": "Tests use the guesses of the shipped examples: plain keys, lists of two values, a single mission and no mass_initial; none mixes plain and prefixed keys.", "anchors": ["aviary/mission/energy_state_problem_configurator.py:448-572", "aviary/mission/two_dof_problem_configurator.py:433-557", "aviary/mission/solved_two_dof_problem_configurator.py:209-260", "aviary/mission/utils.py:80-121", "aviary/mission/phase_builder.py:232-274", "aviary/mission/phase_builder.py:307-368", "aviary/mission/phase_builder.py:651-706", "aviary/mission/initial_guess_builders.py:30-176", "aviary/mission/flight_phase_builder.py:456-470"]}
{"id": "C92", "title": "Masses and sizes of any number of engine types", "statement": "The masses and sizes of engines, thrust reversers, starters, pods, nacelles, anti-icing and gear follow the documented equations for any number of engine types with any numbers of engines: what the pods share out is all there is, an engine at its reference thrust has its reference mass, averages stay between smallest and largest, and every coded partial is the derivative.", "quantifier": "all numbers of engine types, engines per type, thrusts, diameters, lengths, scalers and locations; all scaling options", "why_tests_cant": "Tests check partials by complex step for one or two fixed vectors of two engine types, with the scaler in one regime and most scalers 1; none varies the number of engines, no engine, or five engines.", "anchors": ["aviary/subsystems/mass/flops_based/distributed_prop.py:6-107", "aviary/subsystems/mass/flops_based/engine.py:48-145", "aviary/subsystems/mass/flops_based/thrust_reverser.py:84-107", "aviary/subsystems/mass/flops_based/misc_engine.py:43-75", "aviary/subsystems/mass/flops_based/engine_pod.py:85-167", "aviary/subsystems/mass/flops_based/starter.py:38-93", "aviary/subsystems/mass/flops_based/anti_icing.py:41-115", "aviary/subsystems/mass/flops_based/nacelle.py:72-82", "aviary/subsystems/mass/flops_based/mass_summation.py:147", "aviary/subsystems/mass/flops_based/fuel_system.py:29-59", "aviary/subsystems/geometry/flops_based/nacelle.py:60-153", "aviary/subsystems/geometry/flops_based/landing_gear.py:76-201"]}
{"id": "C93", "title": "GASP masses of the engine types", "statement": "The masses of engines, nacelles, pylons, pods, installation and oil of any number of engine types are the GASP sums, each engine counted once; the mass on the wing counts each engine at its location; every coded partial is the derivative.", "quantifier": "all numbers of engine types, engines per type, locations, thrusts, scalers and masses", "why_tests_cant": "Tests use one type with two engines, one location and scalers 1, where the wrong slices and missing factors cannot be seen.", "anchors": ["aviary/subsystems/mass/gasp_based/engine.py:97-182", "aviary/subsystems/mass/gasp_based/engine.py:223-262", "aviary/subsystems/mass/gasp_based/engine.py:300-333", "aviary/subsystems/mass/gasp_based/engine.py:347-388", "aviary/subsystems/mass/gasp_based/engine.py:455-575", "aviary/subsystems/mass/gasp_based/engine_oil.py:40-81"]}
{"id": "C94", "title": "Skin friction of the components", "statement": "The residuals of SkinFriction determine exactly one wall temperature, below the adiabatic one, and exactly one friction coefficient, which falls with the Reynolds number; form factors are at least 1, laminar flow brings the friction between the laminar and the turbulent value; every coded partial of the residuals and of the drag coefficient is the derivative.", "quantifier": "all temperatures, pressures, Mach numbers, lengths, friction coefficients and wall temperatures; all numbers of components with any fineness ratios, areas and laminar percentages", "why_tests_cant": "Tests compare a few nodes of one aircraft with stored values and check partials with the adiabatic wall temperature frozen by the test itself; fineness ratios stay in one regime and laminar percentages positive.", "anchors": ["aviary/subsystems/aerodynamics/flops_based/skin_friction.py:18-30", "aviary/subsystems/aerodynamics/flops_based/skin_friction.py:132-311", "aviary/subsystems/aerodynamics/flops_based/skin_friction_drag.py:15-24", "aviary/subsystems/aerodynamics/flops_based/skin_friction_drag.py:127-302"]}
{"id": "C95", "title": "Lift dependent drag", "statement": "Every coded partial of LiftDependentDrag is the derivative of its output away from the breakpoints, the drag is never negative where the table is not, its dependence on the sweep is exactly the cosine law of the code, and between neighbouring aspect ratio tables the interpolation meets both tables.", "quantifier": "all Mach numbers, lifts, pressures, areas, aspect ratios, thickness ratios, cambers, sweeps and design points; all differentiable drag tables", "why_tests_cant": "Tests evaluate one transport wing, whose scaled aspect ratio lies in the one range where the interpolation is right.", "anchors": ["aviary/subsystems/aerodynamics/flops_based/lift_dependent_drag.py:40-330"]}
{"id": "C96", "title": "Compressibility drag", "statement": "Every coded partial of CompressibilityDrag is the derivative of its output on the subsonic and on the supersonic branch, no entry keeps the value of an earlier call, and the drag is never negative where the tables are not.", "quantifier": "all Mach numbers, design Mach numbers, areas, ratios and sweeps of any number of nodes; all differentiable tables", "why_tests_cant": "Tests check one aircraft with a fixed taper ratio other than one; stale entries need two calls with different branches.", "anchors": ["aviary/subsystems/aerodynamics/flops_based/compressibility_drag.py:85-360"]}
{"id": "C97", "title": "Induced drag and buffet lift", "statement": "Every coded partial of InducedDrag and BuffetLift is the derivative of what the component computes, forward sweep never lowers the drag and changes nothing without taper, a span efficiency of one gives the classical formula; but the sweep angle is divided by the size of a degree instead of multiplied.", "quantifier": "all flight conditions, wings and options; all differentiable buffet tables", "why_tests_cant": "Tests take stored values of the same code for aft sweep, where InducedDrag ignores the angle, and compare partials with differences of the same wrong function.", "anchors": ["aviary/subsystems/aerodynamics/flops_based/induced_drag.py:65-217", "aviary/subsystems/aerodynamics/flops_based/buffet_lift.py:56-116"]}
{"id": "C98", "title": "Lift interference factor", "statement": "The factor is limited as the code says for a blended wing body, and every coded partial is the derivative of the factor; the entry by the lift ratio is right exactly where the ratio of spans is one or the lift ratio is minus one.", "quantifier": "all lift ratios, span ratios, interference factors and spans; hard and smoothed limits", "why_tests_cant": "Tests check partials at one point with complex step and stored values; they do not cover the replaced span ratio.", "anchors": ["aviary/subsystems/aerodynamics/gasp_based/gaspaero.py:546-660"]}
{"id": "C99", "title": "Body tanks", "statement": "The overflow tank volume is never negative, the capacity is the smaller of what wings and mission allow, and all 55 coded entries of BodyTankCalculations are derivatives away from the switches; with smoothing only those with the right slope of the sigmoid are.", "quantifier": "all densities, volumes, fuel masses and margins; hard and smoothed switches", "why_tests_cant": "Tests compare partials at one aircraft far from the switches, where every sigmoid is 0 or 1.", "anchors": ["aviary/subsystems/mass/gasp_based/fuel.py:109-479"]}
{"id": "C100", "title": "Wetted areas of a transport", "statement": "All 165 coded partials of PrelimWettedArea are derivatives; the wetted areas of wing, tails and canard do not depend on the unit of length; the chord at the side of the body lies between root and tip chord and the wing keeps a wetted area.", "quantifier": "all transports with wing and tail areas, spans, ratios and options; all units of length", "why_tests_cant": "Tests compare partials at a few aircraft and stored values in one unit; a formula which adds a length to a ratio passes both.", "anchors": ["aviary/subsystems/geometry/flops_based/wetted_area_total.py:81-476", "aviary/subsystems/geometry/flops_based/wetted_area_total.py:479-891", "aviary/subsystems/geometry/flops_based/canard.py:11-62", "aviary/subsystems/geometry/flops_based/utils.py:1-16"]}
{"id": "C101", "title": "Values and partials of the inputs of the propeller map", "statement": "Inputs which pass the checks (C50) with a positive speed give positive advance ratio and tip Mach number and every coded partial is a derivative where the velocity is not clamped; the checks refuse exactly diameters which are not positive and vectors which are zero at all nodes.", "quantifier": "any number of nodes, all inputs", "why_tests_cant": "Tests use valid inputs only, so checks which never fire pass; partials are checked above the clamp.", "anchors": ["aviary/subsystems/propulsion/propeller/hamilton_standard.py:459-587", "aviary/subsystems/propulsion/propeller/hamilton_standard.py:872-881"]}
{"id": "C102", "title": "Maximum lift with flaps", "statement": "The interpolation tables of the flap model are continuous and pass through their points; without deflection, chord or span the flaps add neither lift nor drag; more deflection means more drag; the loop between maximum lift, stall Mach number and Reynolds number has at most one subsonic solution and has one exactly when the wing carries its load at Mach one; the optimum deflection is the maximum of the lift table.", "quantifier": "all flap types, geometries, settings and atmospheres", "why_tests_cant": "Tests run the solver from one start for a few wings; uniqueness and existence of the solution and the maximum over all deflections are beyond any sample.", "anchors": ["aviary/subsystems/aerodynamics/gasp_based/flaps_model/meta_model.py:41-900", "aviary/subsystems/aerodynamics/gasp_based/flaps_model/basic_calculations.py:145-245", "aviary/subsystems/aerodynamics/gasp_based/flaps_model/Cl_max.py:230-266", "aviary/subsystems/aerodynamics/gasp_based/flaps_model/L_and_D_increments.py:130-164", "aviary/subsystems/aerodynamics/gasp_based/flaps_model/flaps_model.py:26-138"]}
{"id": "C103", "title": "Detailed wing bending factor", "statement": "The load intensity is accepted exactly for distribution factors from 1 to 3, lies between 0 and 1 and grows with the factor; integration stations increase, lie on the wing, end at the tip, and their number differs from the number asked for by at most half the number of sections; increments of load and moment are the integrals of the linear distributions and the sums from the tip equal the integrals; the average of a constant sweep is that sweep; the engine inertia relief is that of the engines on the wing.", "quantifier": "all distributions, numbers of sections, engine types and positions", "why_tests_cant": "Tests compare two aircraft; they cannot show that the sums are the integrals for every number of stations nor what happens for every mix of engines.", "anchors": ["aviary/subsystems/mass/flops_based/wing_detailed.py:11-47", "aviary/subsystems/mass/flops_based/wing_detailed.py:148-288", "aviary/subsystems/mass/flops_based/wing_detailed.py:390-598"]}
{"id": "C104", "title": "Wing distributions of the blended wing body", "statement": "Updating the detailed wing keeps the lengths of the stations, chords come out in feet, the coded partials are derivatives and every entry that depends on an input is among the declared rows; the preliminary wing ends at its stations and its area is the integral of the chord.", "quantifier": "all wings with at least two stations", "why_tests_cant": "Sparsity errors only show for particular values; the area identity is for every number of stations.", "anchors": ["aviary/subsystems/geometry/flops_based/wing_detailed_bwb.py:48-70", "aviary/subsystems/geometry/flops_based/wing_detailed_bwb.py:162-193", "aviary/subsystems/geometry/flops_based/wing_detailed_bwb.py:268-302", "aviary/subsystems/geometry/flops_based/wing_detailed_bwb.py:336-391", "aviary/subsystems/geometry/flops_based/wing_detailed_bwb.py:441-501"]}
{"id": "C105", "title": "Trajectories of detailed takeoff and landing", "statement": "Building succeeds exactly when the required builders and, with the first of an optional group, all of the group are set; phases appear once, in order, and every link joins phases; in any solution of the links time, distance, speed and mass are continuous along the flown takeoff, the aborted takeoff and the landing; with an abort the field is balanced; only the last call of each setter counts.", "quantifier": "all builders, sequences of setter calls and solutions of the links", "why_tests_cant": "Tests build two fixed trajectories; which combinations fail, and that every solution is continuous, is over all builders and all solutions.", "anchors": ["aviary/mission/energy_state/phases/detailed_takeoff_phases.py:2742-3093", "aviary/mission/energy_state/phases/detailed_takeoff_phases.py:503-581", "aviary/mission/energy_state/phases/detailed_takeoff_phases.py:867-1085", "aviary/mission/energy_state/phases/detailed_takeoff_phases.py:2030-2530", "aviary/mission/energy_state/phases/detailed_landing_phases.py:1312-1549"]}
{"id": "C106", "title": "Conversion of engine decks and propeller maps", "statement": "A GASP deck or propeller map written in the fixed format is read back whatever its size, numbers wrapped at six to a line included; other values of IREAD are refused; the structured grid starts at the least value, reaches the largest and leaves it by less than a step; thrust and fuel flow of a point belong to its altitude; each altitude is interpolated with the method for its number of Mach numbers; rows lie in the order of the grid; kept points are those below the maximum temperature; FLOPS fields are those of their columns, blanks are zero, comments precede the data.", "quantifier": "all texts, tables, sizes and interpolations", "why_tests_cant": "Tests convert a handful of decks and compare files; the round trip, the coverage of the grid and the alignment of tables hold or fail for all decks.", "anchors": ["aviary/utils/conversion_utils.py:6-76", "aviary/utils/engine_deck_conversion.py:154-173", "aviary/utils/engine_deck_conversion.py:209-320", "aviary/utils/engine_deck_conversion.py:366-574", "aviary/utils/propeller_map_conversion.py:84-150"]}
{"id": "C107", "title": "Conversion of aerodynamics tables", "statement": "A FLOPS table is read back with comments before any line, each number with its Mach number and lift coefficient or altitude; a table of columns is read back with names, units and comments, empty lines ignored; a table of maps is read back and refused with unsupported options; drag is put on the angles of attack of the lift table row by row and exists exactly when drag is known at every altitude and Mach number; lift and drag of a row belong to the same condition; the grid ends with the table; rows are written in order with comments and labels.", "quantifier": "all files, tables and interpolations", "why_tests_cant": "The offset bookkeeping of the reader is over all placements of comments; tests use one file per format.", "anchors": ["aviary/utils/aero_table_conversion.py:56-277", "aviary/utils/aero_table_conversion.py:280-336", "aviary/utils/aero_table_conversion.py:339-482", "aviary/utils/csv_data_file.py:219-297"]}
{"id": "C108", "title": "Engine models and the propulsion groups", "statement": "Preprocessing the options of an engine succeeds exactly when no engine or nacelle variable meant to be scalar is a matrix, keeps every other value and leaves one-element choices stable; combining the dictionaries of engines takes each name from the last engine that has it and no engine loses a value when they agree; before the mission every vectorized output reaches the slot of its own engine; in the mission each engine gets its own inputs and its outputs reach its own column; totals are the sums over engine types of number times value, with exact derivatives.", "quantifier": "all lists of engines, options, dictionaries and values", "why_tests_cant": "Tests build one or two engines; which entry reaches which slot and which engine decides a shared name is a statement about all lists of engines.", "anchors": ["aviary/subsystems/propulsion/engine_model.py:133-205", "aviary/subsystems/propulsion/propulsion_builder.py:79-292", "aviary/subsystems/propulsion/propulsion_premission.py:38-217", "aviary/subsystems/propulsion/propulsion_mission.py:47-665", "aviary/subsystems/propulsion/utils.py:66-70"]}
{"id": "C109", "title": "Turboprop engine models", "statement": "With a gearbox, no input of the shaft power model, gearbox, propeller or thrust sum is connected twice and no promoted input is connected; every input of the shaft power model is connected or promoted; what the engine gives and the gearbox takes goes from one to the other; what the gearbox gives goes out under its plain name and to the propeller; thrusts go to the sum and are promoted by neither model; fixed RPM and RPM of the engine reach the gearbox and the control exists exactly when it is needed; the control of RPM is renamed; gearbox and motor conserve power up to their efficiency.", "quantifier": "all lists of inputs and outputs of the three models, all values", "why_tests_cant": "The connections are decided by string operations on the names the three user-supplied models happen to have; tests use two or three combinations.", "anchors": ["aviary/subsystems/propulsion/turboprop_model.py:60-96", "aviary/subsystems/propulsion/turboprop_model.py:317-561", "aviary/subsystems/propulsion/turboprop_model.py:699-1021", "aviary/subsystems/propulsion/gearbox/model/gearbox_mission.py:18-69", "aviary/subsystems/propulsion/gearbox/model/gearbox_premission.py:22-69", "aviary/subsystems/propulsion/motor/model/motor_map.py:46-120", "aviary/subsystems/propulsion/motor/model/motor_mission.py:27-104"]}
{"id": "C110", "title": "Payload, cabin equipment, fuel capacities and the wing mass equation", "statement": "Payload masses are sums of number times unit mass with exact partials; the number of cargo containers covers the demand and grows with it; flight attendants and emergency equipment never decrease with passengers and follow their steps; the capacities left to be computed from the given ones are determined whenever enough are given; the implicit wing mass has for positive data exactly one solution, with exact partials, which grows with the gross mass.", "quantifier": "all passenger numbers, masses, capacities and wing data", "why_tests_cant": "Tests evaluate single aircraft; uniqueness of the implicit solution and the behaviour for every combination of given capacities are universal statements.", "anchors": ["aviary/subsystems/mass/flops_based/payload.py:13-108", "aviary/subsystems/mass/flops_based/fuel_capacity.py:9-135", "aviary/subsystems/mass/gasp_based/cargo_containers.py:25-36", "aviary/subsystems/mass/gasp_based/emergency_equipment.py:28-48", "aviary/subsystems/mass/gasp_based/fixed.py:308-320", "aviary/subsystems/mass/gasp_based/wing.py:18-251"]}
{"id": "C111", "title": "Engine indices of the nacelle lengths and of the characteristic lengths", "statement": "The nacelle characteristic length and fineness of each engine type are those of that type, also when some types have no engines; the partials have the declared shape; the columns the mux of characteristic lengths writes for wing, tails, fuselage and every nacelle are the declared ones, each exactly once and in the order of the components.", "quantifier": "all lists of engine numbers and nacelle dimensions", "why_tests_cant": "Tests use one or two engine types with at least one engine each; the mix-up of positions and indices needs a type without engines.", "anchors": ["aviary/subsystems/geometry/flops_based/characteristic_lengths.py:297-428", "aviary/subsystems/aerodynamics/flops_based/mux_component.py:8-377"]}
{"id": "C112", "title": "Ramps, speed constraints, the fitted climb profile and the tip speed limit", "statement": "The time ramp multiplies its input by the clamped fraction of the ramp passed, rises monotonically, and ramp up and ramp down share the input, with exact partials off the two corners; the smooth ramp stays strictly between its values, is symmetric about its middle and has exact partials; the speed constraints are met exactly when both limits hold, with exact sparsity; the residual of the profile fit is the gradient of the squared error and vanishes exactly at the best cubic; the smooth tip speed limit lies below both limits by at most log 2 / 50, keeps the helical Mach number, and has exact partials.", "quantifier": "all times, durations, values, node counts and sample points", "why_tests_cant": "Tests sample a ramp at a few nodes; where the binary search puts the corners and optimality of the fit are statements about all arrays.", "anchors": ["aviary/subsystems/aerodynamics/gasp_based/common.py:105-231", "aviary/subsystems/aerodynamics/gasp_based/common.py:233-384", "aviary/mission/two_dof/ode/constraints/speed_constraints.py:1-75", "aviary/mission/two_dof/polynomial_fit.py:60-115", "aviary/subsystems/propulsion/propeller/propeller_performance.py:20-156"]}
{"id": "C113", "title": "Builders of aerodynamics, geometry and mass", "statement": "The aerodynamics builder builds a mission group exactly for a documented method with its data and only declared options, and declines exactly for external; whenever it builds, the lists of promoted inputs and outputs and the parameters exist, every parameter is promoted and none is given twice, and tail variables are parameters exactly when there is such a tail; tables get the shape of their grid; the geometry builder builds for every code origin it accepts; the mass report lists the value found, in the units of the metadata, per engine type.", "quantifier": "all option dictionaries, code origins, aircraft inputs and tables", "why_tests_cant": "Tests build the handful of methods used by the examples; which options make the builder fail is a statement about all option dictionaries.", "anchors": ["aviary/subsystems/aerodynamics/aerodynamics_builder.py:86-219", "aviary/subsystems/aerodynamics/aerodynamics_builder.py:229-377", "aviary/subsystems/aerodynamics/aerodynamics_builder.py:379-749", "aviary/subsystems/geometry/geometry_builder.py:41-98", "aviary/interface/utils.py:38-90", "aviary/subsystems/mass/mass_builder.py:160-210"]}
{"id": "C114", "title": "Metadata of the core variables", "statement": "Every core variable has exactly one metadata entry and every entry a variable; its units are an expression with a dimension; its default has the declared type; flags, names, enumerations and counts have no units; the units have the dimension the name announces; totals, extremes and rates have the dimension of their quantity, over time for rates.", "quantifier": "all 637 core variables", "why_tests_cant": "Tests check that the entries exist; the dimensions of units are nowhere compared with the names.", "anchors": ["aviary/variable_info/variable_meta_data.py:1-7828", "aviary/variable_info/variables.py:1-783"]}
{"id": "C115", "title": "Options given by the ODEs to their subsystems", "statement": "Each subsystem of an ODE is built with the defaults of the ODE updated by the options the user gives under its name and by nothing else; options of the user are not changed by building; the documented user options reach the group, and a phase without options gets the parameters of the group that is built; the tabular flag says that every phase uses tables.", "quantifier": "all ODEs, all dictionaries of user options, all lists of subsystems in any order", "why_tests_cant": "Tests set up each ODE once with default options; sharing and order of subsystems and dictionaries never varies.", "anchors": ["aviary/mission/two_dof/ode/takeoff_ode.py:142-191", "aviary/mission/two_dof/ode/flight_ode.py:175-215", "aviary/mission/two_dof/ode/breguet_cruise_ode.py:36-76", "aviary/mission/two_dof/ode/simple_cruise_ode.py:36-78", "aviary/mission/two_dof/ode/flight_path_ode.py:49-134", "aviary/mission/two_dof/ode/landing_ode.py:78-132", "aviary/mission/two_dof/ode/accel_ode.py:29-35", "aviary/mission/base_ode.py:55-124", "aviary/mission/solved_two_dof/ode/groundroll_ode.py:47-83", "aviary/mission/solved_two_dof/ode/unsteady_solved_ode.py:157-210", "aviary/core/aviary_group.py:492-507"]}
{"id": "C116", "title": "Drag build-up of the GASP aerodynamics", "statement": "The slopes of wing and tail are the unique solution of the coupled downwash system and the lift ratio is the ratio of tail to wing lift moved by the stability margin; friction and Reynolds corrections are positive and fall with Mach number and length, every node in air has a good Reynolds number; the drag without lift used by the drag coefficients is the flat plate area over the wing area; the induced drag parameter is the closed form of the Oswald efficiency, which is at most the interference factors; every input an output depends on has a declared partial; the compressibility increment is not negative; every node is scaled by the factor of its speed range; ground effects vanish far from the ground, do not depend on the unit of length and never lower lift.", "quantifier": "all real inputs, all numbers of nodes and engine types", "why_tests_cant": "Tests compare one aircraft at a few nodes with stored numbers, with all drag factors one; dependence on an input not varied in a test is invisible.", "anchors": ["aviary/subsystems/aerodynamics/gasp_based/gaspaero.py:79-95", "aviary/subsystems/aerodynamics/gasp_based/gaspaero.py:174-209", "aviary/subsystems/aerodynamics/gasp_based/gaspaero.py:245-261", "aviary/subsystems/aerodynamics/gasp_based/gaspaero.py:341-408", "aviary/subsystems/aerodynamics/gasp_based/gaspaero.py:770-894", "aviary/subsystems/aerodynamics/gasp_based/gaspaero.py:896-1059", "aviary/subsystems/aerodynamics/gasp_based/gaspaero.py:1300-1343", "aviary/subsystems/aerodynamics/gasp_based/gaspaero.py:1379-1438", "aviary/subsystems/aerodynamics/gasp_based/gaspaero.py:1497-1538"]}
{"id": "C117", "title": "Wiring of the group built by an engine deck", "statement": "For every deck, the group built for a mission only connects existing outputs to existing inputs, promotes existing names, gives each input at most one source, and leaves no input without a value; no implicit connection arises by promotion.", "quantifier": "all sets of deck variables, declared inputs and outputs, throttle options and orders of sorting", "why_tests_cant": "Tests build the group for one or two turbofan decks read from files; hybrid throttles, the speed of rotation as a column or an input, and data from memory never reach build_mission in a test.", "anchors": ["aviary/subsystems/propulsion/engine_deck.py:278-296", "aviary/subsystems/propulsion/engine_deck.py:778-848", "aviary/subsystems/propulsion/engine_deck.py:867-1186", "aviary/subsystems/propulsion/engine_scaling.py:50-101"]}
{"id": "C118", "title": "Reading an engine deck from memory and sorting its points", "statement": "Each variable of the deck holds the converted numbers of the column named by one of its aliases, is listed exactly when such a column exists and is empty otherwise; sorting applies one permutation to all columns, orders the points lexicographically by Mach number (or altitude), throttle and hybrid throttle, is stable and idempotent.", "quantifier": "all tables, column orders, unit conversions and numbers of points", "why_tests_cant": "The single test with data in memory gives five well-named columns that are already sorted.", "anchors": ["aviary/subsystems/propulsion/engine_deck.py:340-417", "aviary/subsystems/propulsion/engine_deck.py:1536-1575"]}
{"id": "C119", "title": "Aircraft values the mission analysis reads come from the user", "statement": "For every aerodynamics method, legal engine count and mission phase, each aircraft or mission value that a component of the phase reads from outside is in the list of parameters the builders ask for, so the phase uses the value the user gave and not the default of the metadata.", "quantifier": "all methods, counts of fuselages, engines and tails, user values and phases", "why_tests_cant": "A missing parameter leaves the metadata default in place without any message; tests that use the defaults, or compare with runs that do, cannot see it.", "anchors": ["aviary/subsystems/aerodynamics/aerodynamics_builder.py:1-900", "aviary/subsystems/aerodynamics/gasp_based/gaspaero.py:700-1500", "aviary/subsystems/aerodynamics/flops_based/computed_aero_group.py:1-251", "aviary/mission/two_dof/ode/takeoff_ode.py:300-322"]}
{"id": "C120", "title": "Declaring inputs, outputs and options from the metadata", "statement": "A declaration that succeeds carries the requested units (or those of the metadata) and the same physical default, filled into the given shape; it fails exactly when the units cannot be reached; options are stored as value or as value with units and later values are converted; and every call in the package agrees with the metadata.", "quantifier": "all metadata, unit libraries, defaults, units, shapes and values; all 761 distinct calls of the package", "why_tests_cant": "Tests declare a handful of variables; no test compares the units, shapes and kinds in all calls with the metadata.", "anchors": ["aviary/variable_info/functions.py:22-101", "aviary/variable_info/functions.py:103-179", "aviary/variable_info/functions.py:182-277", "aviary/variable_info/variable_meta_data.py:1-7828"]}
{"id": "C121", "title": "Values set on the group are those of the user or of the metadata", "statement": "After configure, each promoted variable of the hierarchy that is not dynamic and not an option has exactly one default: the value and units of the user when given, else those of the metadata, broadcast to the shape that is read; nothing else is set. The container of option defaults holds exactly the options with a default.", "quantifier": "all lists of subsystems with any promotions and inputs, all metadata and user values", "why_tests_cant": "Tests set up a few aircraft whose values agree with the defaults or whose shapes agree between groups.", "anchors": ["aviary/core/aviary_group.py:90-189", "aviary/variable_info/options.py:9-53"]}
{"id": "C122", "title": "Loading of subsystems and configuration of the mission", "statement": "External subsystems are loaded exactly when they are engine models or builders; the modifier of the phase information is accepted exactly for the right arguments; guesses and options of a subsystem reach it; each kind of phase gets its builder; the target range is the one given; and the mass at the start of the first phase is tied to the surroundings in exactly one way.", "quantifier": "all lists of subsystems, verbosities, phase names and settings, and the three configurators", "why_tests_cant": "Tests use one mission per configurator with the usual phase names and default verbosity.", "anchors": ["aviary/core/aviary_group.py:232-398", "aviary/core/aviary_group.py:842-847", "aviary/core/aviary_group.py:1504-1583", "aviary/mission/energy_state_problem_configurator.py:25-64", "aviary/mission/energy_state_problem_configurator.py:100-151", "aviary/mission/energy_state_problem_configurator.py:226-247", "aviary/mission/energy_state_problem_configurator.py:291-390", "aviary/mission/two_dof_problem_configurator.py:28-74", "aviary/mission/two_dof_problem_configurator.py:110-199", "aviary/mission/two_dof_problem_configurator.py:309-367", "aviary/mission/solved_two_dof_problem_configurator.py:18-39", "aviary/mission/solved_two_dof_problem_configurator.py:73-111", "aviary/mission/solved_two_dof_problem_configurator.py:134-207"]}
{"id": "C123", "title": "Steps of a problem from loading to running", "statement": "Every step of the problem (adding groups, loading subsystems, checking, building, adding driver and design variables, setting up, running) reaches every mission exactly once and stops at the first error; a problem keeps missions of its own type only; external subsystems of every mission end up among its subsystems; the driver gets the optimizer, limit and recording asked for; the design range is the largest range of the missions named; and the result of the run is recorded as it was.", "quantifier": "all problem types, all sequences of groups and their subsystems, all optimizers, verbosities, ranges and outcomes of the run", "why_tests_cant": "Tests run one or two missions with the usual sequence of calls; none adds a mission to a problem of another type or loads subsystems of several missions.", "anchors": ["aviary/core/aviary_problem.py:76-123", "aviary/core/aviary_problem.py:192-249", "aviary/core/aviary_problem.py:251-324", "aviary/core/aviary_problem.py:326-491", "aviary/core/aviary_problem.py:493-612", "aviary/core/aviary_problem.py:615-662", "aviary/core/aviary_problem.py:826-852", "aviary/core/aviary_problem.py:1095-1143", "aviary/core/aviary_problem.py:1160-1180", "aviary/core/aviary_problem.py:1239-1355"]}
{"id": "C124", "title": "Partials of design speeds, load factors and landing gear of GASP", "statement": "For every structural category, smoothing option and configuration the analytic partials of LoadSpeeds, LoadFactors, their blended wing body versions and TotalLandingGearMass are the derivatives of the outputs; the speeds and factors are the documented minima and maxima; the gear height is at least that required by every type of engine.", "quantifier": "all real inputs with positive physical quantities, all categories, options and numbers of engine types", "why_tests_cant": "Tests compare partials at a few points, mostly far from the smoothed switches, with scaler 1 and category 3.", "anchors": ["aviary/subsystems/mass/gasp_based/design_load.py:52-330", "aviary/subsystems/mass/gasp_based/design_load.py:687-1122", "aviary/subsystems/mass/gasp_based/design_load.py:1212-1566", "aviary/subsystems/mass/gasp_based/design_load.py:1607-2180", "aviary/subsystems/mass/gasp_based/landing.py:77-177"]}
{"id": "C125", "title": "Cabin layout of FLOPS from passengers and seats", "statement": "Every class with passengers has seats abreast; given numbers are kept and missing ones get the documented default; services are counted within limits that grow with the passengers; the layout is computed for all passenger numbers; more seat pitch never shortens the cabin; the fuselage is as wide as its widest class. The cabin of a blended wing body is a trapezoid of the computed area in every round of the bay iteration, bays and sidewalls respect their limits, and the partials of its simple layout are exact.", "quantifier": "all numbers of passengers, seats, pitches, widths, engines, sweeps and bay limits", "why_tests_cant": "Tests run a handful of aircraft; table boundaries, absent classes and limited bays are not combined.", "anchors": ["aviary/subsystems/geometry/flops_based/fuselage.py:198-458", "aviary/subsystems/geometry/flops_based/fuselage.py:518-618", "aviary/subsystems/geometry/flops_based/fuselage.py:657-797"]}
{"id": "C126", "title": "Rows of seats of a blended wing body (GASP)", "statement": "The loops over rows end after the least number of rows that seats all passengers of a class; rows are a pitch apart and widen toward the cabin width; classes are separated by an aisle of five feet behind the last row; the aft bulkhead lies behind the last row and the lavatories; a layout is found for every cabin that holds the aisles and one seat.", "quantifier": "all passenger numbers, pitches, seat and cabin widths, sweeps and numbers of rows", "why_tests_cant": "Each test lays out one cabin; a loop that never ends, a class with one passenger in the last row and an empty economy class are not tried.", "anchors": ["aviary/subsystems/geometry/gasp_based/fuselage.py:483-703"]}
{"id": "C127", "title": "Wing mass of a blended wing body (GASP)", "statement": "The residual of the implicit wing mass is that of a conventional wing whose bending moment is divided by one plus the lift ratio of body and wing and whose span is reduced by the cabin; it has exactly one root up to 1.25 times the gross mass; lift of the body never raises the mass; all 15 partials of linearize are the derivatives of the residual.", "quantifier": "all inputs for which the powers are taken of positive numbers", "why_tests_cant": "Tests compare partials at one point and solve for one aircraft; they show neither uniqueness nor the derivative everywhere.", "anchors": ["aviary/subsystems/mass/gasp_based/wing.py:399-686"]}
{"id": "C128", "title": "Assembly of an ODE from subsystems and controllers", "statement": "Every subsystem with a mission component is put once, in order and with the promotions for its own options, into the ODE or the group with a solver; the flag tells whether one asked for the solver; assembly fails exactly for names used twice. Every mode of the angle of attack has a component; a solver is set only when asked for; the throttle balance can be added to any number of ODEs. A phase hands the subsystems, their options and the user options to its ODE, and its mission bus has the segments of the phase.", "quantifier": "all lists of subsystems, options, solver groups, modes, numbers of ODEs and builders", "why_tests_cant": "Tests assemble the shipped subsystems once per process; duplicate names, unused modes and a second ODE with the default group are not tried.", "anchors": ["aviary/mission/base_ode.py:55-124", "aviary/mission/two_dof/ode/two_dof_ode.py:17-216", "aviary/mission/phase_builder.py:155-221"]}
{"id": "C129", "title": "Tables of the low speed aerodynamics", "statement": "Rebuilding the column of angles keeps a full grid and keeps the number of rows of any table; the largest lift of a pair of the other variables is the lift at its last angle, for flat data of any shape, and bounds the lift of the pair; a table is accepted exactly when its inputs and outputs are there; every promoted output exists; the gear and the flaps ramp with their own options.", "quantifier": "all tables, axes of any lengths, all flat data and all flags", "why_tests_cant": "Tests read the shipped tables, which are full grids in one order with growing lift.", "anchors": ["aviary/subsystems/aerodynamics/gasp_based/table_based.py:445-698", "aviary/subsystems/aerodynamics/gasp_based/table_based.py:289-375"]}
{"id": "C130", "title": "Options of an engine deck", "statement": "A deck built from the options of an aircraft gets exactly the engine variables with a value, each made one of a single engine. Options are accepted exactly when every required one has a value or default, the sort is by Mach or altitude and the idle fractions are ordered if idle is generated; given values are kept, defaults fill the rest and a second check changes nothing. The steps of the setup keep one order and are told by the options. Altitudes are converted when asked for, and an update checks its options again.", "quantifier": "all options, meta data, lists of variables, names and flags", "why_tests_cant": "Tests give full sets of options with geopotential altitude off and never update a deck.", "anchors": ["aviary/subsystems/propulsion/utils.py:135-219", "aviary/subsystems/propulsion/engine_deck.py:94-338", "aviary/subsystems/propulsion/engine_model.py:207-211"]}
{"id": "C131", "title": "Bending factor of a simple wing (FLOPS)", "statement": "All eight partials of the bending factor are its derivatives; the factor is positive for wings swept back with factors between zero and one and does not fall with the span; the engine relief is positive for up to 33 engines.", "quantifier": "all inputs with positive area, non-zero span, thickness, aspect ratio and correction, aspect ratio other than five", "why_tests_cant": "Tests check partials at a few wings; the kink at aspect ratio five is not among them.", "anchors": ["aviary/subsystems/mass/flops_based/wing_simple.py:7-159"]}
{"id": "C132", "title": "Throttles normalised per flight condition", "statement": "For every deck the throttles of a flight condition are normalised by one increasing map of its own points onto the scale from zero to one, hybrid throttles by one that keeps zero; the new column has one value per point in the order of the deck and there are limits per condition.", "quantifier": "all decks of any size, both sorts, all columns", "why_tests_cant": "Tests normalise a few shipped decks; a flight condition with a single point is not among them.", "anchors": ["aviary/subsystems/propulsion/engine_deck.py:1409-1534", "aviary/subsystems/propulsion/engine_deck.py:1577-1712"]}
{"id": "C133", "title": "Reports of a run", "statement": "The report of inputs names exactly the unconnected inputs which were not given; every one of them is in at most one table. The report of overrides has the first path of every external override and one row for every value of the aircraft, and fails exactly for a value which is not there. Every column of the time series has a line for each time of each phase, in the units of the first phase. The totals of the mission summary are from the beginning of the first phase to the end of the last, and elapsed times of linked phases add up to them.", "quantifier": "all names of missions and variables, all lists of outputs, phases and missions, all values", "why_tests_cant": "Tests look whether the files are there; the names of missions, phases without a variable, variables with several columns and missions without phases are not tried.", "anchors": ["aviary/interface/reports.py:190-352", "aviary/interface/reports.py:394-473", "aviary/interface/reports.py:488-608", "aviary/interface/reports.py:640-680"]}
{"id": "C134", "title": "Phases of the detailed landing", "statement": "Each of the six builders reads only options it declares and is built exactly if all options given are declared and the altitudes it needs are known; every request of the phase (bounds of the duration, fixed ends and bounds of the states, controls, initial altitude) is that of its option or default. In a landing with the approach, time and every state of every later phase are fixed or linked; the time lies between the number of phases and the sum of the longest durations; the microphone phase begins at its own height and ends at the obstacle, both above the airport.", "quantifier": "all options of the user, all altitudes, all names, all solutions of the requests", "why_tests_cant": "Tests solve one landing; they cannot show that nothing is left free for other options, nor that no airport is excluded.", "anchors": ["aviary/mission/energy_state/phases/detailed_landing_phases.py:53-1304"]}
{"id": "C135", "title": "Idle points and lines of converted GASP decks", "statement": "Every combination of a Mach number and an altitude of a converted turbofan deck has an idle line of throttle zero, with the thrust of the idle air flow at the inlet conditions; idle thrust is positive and grows with Mach number as the cube of the ratio of the temperatures. The lines written are exactly those of data and idle points with throttle at most one, the columns kept together, sorted by Mach number, altitude and throttle; with positive ratios the idle line is the first of its condition. The header of a turboshaft deck and its tables are read back; the default output is never the input.", "quantifier": "all decks, atmospheres, maxima, texts of numbers and file names", "why_tests_cant": "Tests convert three decks; alignment of the columns, order and uniqueness of conditions hold for all decks only by proof.", "anchors": ["aviary/utils/engine_deck_conversion.py:93-363", "aviary/utils/engine_deck_conversion.py:408-456", "aviary/utils/engine_deck_conversion.py:576-746"]}
{"id": "C136", "title": "Phase builders of the two degree of freedom missions", "statement": "Every option read while a phase is built is declared by its options class with a value of the kind read, so any accepted options build a phase. States, controls, parameters and constraints are exactly those of the kind of phase: the start of a state is held exactly if its option is given, the wheels carry no load at the end of a rotation, the load factor is bounded exactly in the air. Every variable to be linked is one the phase offers. Time, distance and mass are continuous from a phase to the next unless both are cruises, altitude between phases that both link it.", "quantifier": "all option values of the declared kinds, all six builders and all pairs of consecutive phases", "why_tests_cant": "Tests build each phase with one set of options; the agreement of declared and read options and continuity of the chain hold for all options only by proof.", "anchors": ["aviary/mission/two_dof/phases/takeoff_phase.py:17-341", "aviary/mission/two_dof/phases/accel_phase.py:14-165", "aviary/mission/two_dof/phases/flight_phase.py:16-210", "aviary/mission/two_dof/phases/simple_cruise_phase.py:10-201", "aviary/mission/two_dof/phases/breguet_cruise_phase.py:13-196", "aviary/mission/solved_two_dof/phases/groundroll_phase.py:24-205", "aviary/utils/aviary_options_dict.py:84-493"]}
{"id": "C137", "title": "Engines composed of parts and the battery", "statement": "States, constraints, parameters, guesses and design variables of a turboprop are those of its parts, a later part winning; names of linked variables, masses and time series are concatenated; a solver is needed exactly if a part needs one. The rotational speed is a control under its own name with a suffix only. Parts of distinct names give their systems before and after the mission. The constraint of the battery holds exactly if at most four fifths of its capacity times the efficiency were used.", "quantifier": "all answers of the three parts, present or absent, and all masses, densities and efficiencies", "why_tests_cant": "Tests build one turboprop with default parts and two battery runs; collisions of names between user parts are not tried.", "anchors": ["aviary/subsystems/propulsion/turboprop_model.py:59-594", "aviary/subsystems/subsystem_builder.py:42-560", "aviary/subsystems/energy/battery_builder.py:36-125"]}
{"id": "C138", "title": "The graphical editor of missions", "statement": "In a session of edits, drags, clicks at later times, new rows, deletions of later points, changes of units, orders, boxes and limits that stay non-negative, the lists of the editor belong together: three numbers for each point, an order for each phase, a row for each point, a box for each phase if they are shown. A mission is saved unless times decrease or low Mach numbers are declined. The file has one phase for each gap between points, under different names numbered by kind, that meet in Mach number, altitude and time, with ends inside their bounds, and guesses of time inside theirs if the mission starts at zero and phases last at least 0.1. A saved mission of two or more points is opened with its rounded points, orders, boxes, units and options, and saving it again writes the same file. The range at constant Mach number is 343 m/s times Mach number times time.", "quantifier": "all sequences of user actions of any length, all numbers of points, all rational coordinates, precisions and units", "why_tests_cant": "The editor is a window; the tests call create_phase_info on one mission and never save, open and save again.", "anchors": ["aviary/interface/graphical_input.py:226-331", "aviary/interface/graphical_input.py:477-789", "aviary/interface/graphical_input.py:1024-1358", "aviary/interface/graphical_input.py:1406-1562", "aviary/interface/graphical_input.py:1572-1755"]}
{"id": "C139", "title": "The text of a phase info file", "statement": "The text that is printed for a nested value of dictionaries, lists and tuples, whether items go on one line or on several, is read by python as that value if it has no tuple of one item, with floats of python for floats of numpy before numpy 2. Every dictionary that the mission editor writes is of this kind. A tuple of one item that fits on one line is read as its item. Since numpy 2 no mission that was saved can be read, because floats of numpy print with the name np, which the file does not import.", "quantifier": "all nested values of any depth and width, all indentations, all missions of any number of phases", "why_tests_cant": "There is no test that reads a written file; which form is printed depends on the length of the text.", "anchors": ["aviary/interface/graphical_input.py:24-47", "aviary/interface/graphical_input.py:1413-1418", "aviary/interface/graphical_input.py:1637-1730"]}
{"id": "C140", "title": "Tools of the documentation and the table of variables", "statement": "The keys that get_all_keys lists with their layers are exactly the texts for which get_value finds something and that name nothing in double underscores, if keys are not empty and have no dots; without layers they are the last keys of the paths; no key is listed twice. With the name of a class as layer no key can be looked up in the class. check_contains accepts exactly subsets, check_args exactly permutations of the names that are not ignored, or equal defaults; get_attribute_name inverts distinct values. Names are glued once each. The table of the dashboard shows every variable exactly once, under the part of its name before the first colon. Equal arrays do not pass check_value, a default is glued for parameters that have none, the argument add_attributes does nothing, and a variable alone in its group is shown with the name of the group.", "quantifier": "all nested dictionaries of any depth and width, all texts, all lists of names, all functions with any number of parameters, all sets of variables", "why_tests_cant": "The tools are tested on a few dictionaries of two layers and a few functions; the table is not tested.", "anchors": ["aviary/utils/doctape.py:50-73", "aviary/utils/doctape.py:141-322", "aviary/utils/doctape.py:325-394", "aviary/utils/doctape.py:436-458", "aviary/utils/doctape.py:554-636", "aviary/visualization/dashboard.py:331-434"]}
{"id": "C141", "title": "Phases of the energy method and of the solved method", "statement": "From all options that were accepted a phase of the energy method and one of the solved method are built, unless a constraint of the user or of a subsystem is malformed or the transcription is unknown; every argument comes from its own option, and no option is read that is not declared. The start and the length of the distance of a solved phase are held exactly if they are given, and otherwise have bounds and references in feet. The angle of attack is a control exactly in a rotation. Both offer all variables they ask to be linked. Time, distance and mass are continuous at the joints of all such phases, altitude, Mach number and angle of attack unless neither phase optimises them. Solved phases ask for four outputs twice.", "quantifier": "all values of all options of the declared kinds, all numbers of engines, all subsystems, all constraints, all pairs of phases", "why_tests_cant": "Tests build phases with a few options; continuity at joints is only seen in the results of a few missions.", "anchors": ["aviary/mission/flight_phase_builder.py:27-169", "aviary/mission/flight_phase_builder.py:192-450", "aviary/mission/solved_two_dof/phases/solved_twodof_phase.py:26-307"]}
{"id": "C142", "title": "The file written by the conversion of a legacy deck can be read", "statement": "The file that fortran_to_aviary writes, read by parse_inputs, gives exactly one set_val for each converted value, with that value and those units, in the order of the names; the comments and the values that were not converted change nothing. Every value is written once, and the file does not depend on the order of the conversion. The settings name the legacy code whatever the deck says. A call changes one file, beside the deck unless another place is named, and without force that file did not exist.", "quantifier": "all decks, all converted values, all names of files and all states of the file system", "why_tests_cant": "Tests compare the files of a few decks with stored ones and do not read them back.", "anchors": ["aviary/utils/fortran_to_aviary.py:41-184", "aviary/utils/process_input_decks.py:132-218", "aviary/utils/functions.py:94-129"]}
{"id": "C143", "title": "Design point, wetted area of a blended wing body, cables and sums", "statement": "The declared partials of the design lift coefficient and Mach number are the derivatives in each branch, for any differentiable tables and along any path of the four inputs. Sweep and slenderness only raise the design Mach number. The wetted area of the wing of a blended wing body lies between the factors of its thinnest and thickest section times the planform; fractions of stations lie outside the fuselage and inside the semispan. The partials of the sums with declared constants are these constants. The auxiliary power unit has a positive mass exactly above 35 passengers.", "quantifier": "all real inputs away from the switch of thickness, all differentiable tables, all numbers of stations, engines and nodes", "why_tests_cant": "Tests check partials at single points and do not visit both sides of the switches.", "anchors": ["aviary/subsystems/aerodynamics/flops_based/premission_aero.py:14-205", "aviary/subsystems/geometry/flops_based/wetted_area_total.py:551-642", "aviary/subsystems/geometry/flops_based/wetted_area_total.py:973-1001", "aviary/subsystems/geometry/gasp_based/electric.py:11-57", "aviary/subsystems/mass/gasp_based/apu.py:8-26", "aviary/subsystems/mass/gasp_based/control.py:275-301", "aviary/subsystems/mass/mass_to_weight.py:7-38"]}
{"id": "C144", "title": "The command line and the steps of a run", "statement": "The arguments are cut at the first `--` without loss. For each command line it is decided whether help is shown, a script is run, the parser decides, or the program fails. Each command and each type of conversion comes to its own function. Allowed options of `run_mission` always give a run with the same level, deck and optimizer. A run makes each step once, in order and with one level, and uses the subsystems that were given; a reloaded problem is a run without further subsystems. A directory is removed by the dashboard only for a zip file and with `--force`. The check of the installation succeeds exactly when the packages load and the trial run with the best optimizer succeeds.", "quantifier": "all argument lists, all results of the parser, all file systems, all levels, all lists of subsystems, all machines", "why_tests_cant": "Tests run a handful of commands and check the exit code only.", "anchors": ["aviary/interface/cmd_entry_points.py:46-203", "aviary/interface/run_aviary.py:14-206", "aviary/core/aviary_problem.py:2069-2132", "aviary/visualization/dashboard_cmd.py:65-131", "aviary/interface/installation_test.py:14-118"]}
{"id": "C145", "title": "The polynomial through the altitudes of the ascent", "statement": "The residuals of the coefficients are the derivatives of the sum of squared errors and vanish exactly for the coefficients of least error. With four different times such coefficients exist and are unique, and altitudes on a cubic are met exactly. The values computed by the component satisfy all its residuals.", "quantifier": "all numbers of points, all times and altitudes, all coefficients", "why_tests_cant": "Tests compare two altitudes for one set of points.", "anchors": ["aviary/mission/two_dof/polynomial_fit.py:6-111", "aviary/mission/two_dof_problem_configurator.py:369-407"]}
{"id": "C146", "title": "Ties between take-off, trajectory and landing, and the guesses of the phases", "statement": "The constraints added after the mission say exactly that Mach and altitude continue from take-off when they are optimized, or that the first mass is the gross mass without taxi and take-off fuel. The landing starts at the last altitude of the last phase that is no reserve. With two degrees of freedom the times of gear and flaps lie in the ascent. The loop over the phases hands every phase its own guesses and its own object, except a ground roll at the start of the solved equations.", "quantifier": "all phases and options, all values of the variables, all trajectories", "why_tests_cant": "Tests run a few missions and compare their results.", "anchors": ["aviary/mission/energy_state_problem_configurator.py:290-446", "aviary/mission/two_dof_problem_configurator.py:110-149, 309-428", "aviary/core/aviary_group.py:668-693, 1452-1502"]}
{"id": "C147", "title": "The fuel volume of the wing of a blended wing body", "statement": "The volume equals a closed form without roots: fraction times thickness times usable span times chords. All stored partial derivatives are the derivatives of the volume.", "quantifier": "all wings with positive usable span and chords, with and without smoothing", "why_tests_cant": "Tests check the partial derivatives at one or two points, without smoothing.", "anchors": ["aviary/subsystems/geometry/gasp_based/wing.py:483-866", "aviary/utils/math.py:6-99"]}
{"id": "C148", "title": "Declared derivatives the translation of the components left open", "statement": "The declared partial derivatives of the strut by the fuselage diameter, of the wetted area of the fuselage by its reference diameter, of the factors of the GASP wing, of the Mach number, density ratio and speed of the GASP design loads, and of the largest wing fuel of GASP are the derivatives of the outputs.", "quantifier": "all inputs between the cut-offs of the smooth steps, all altitudes, engine counts and structural categories", "why_tests_cant": "Tests compare with complex step at one point, mostly where the steps are saturated and the wrong terms vanish.", "anchors": ["aviary/subsystems/geometry/gasp_based/strut.py:50-103", "aviary/subsystems/geometry/flops_based/wetted_area_total.py:850-961", "aviary/subsystems/mass/gasp_based/fixed.py:85-248", "aviary/subsystems/mass/gasp_based/design_load.py:372-585", "aviary/subsystems/mass/gasp_based/fuel.py:580-748"]}
{"id": "C149", "title": "Declared derivatives of the glide before the landing", "statement": "The declared partial derivatives of the glide angle, the glide distance, the flare altitude and the transition distance by mass, wing area, lift coefficient, density, speed ratio and sink rate are the derivatives of these outputs.", "quantifier": "all glides with positive inputs and a sink rate below the glide speed, any gravity and any load factor", "why_tests_cant": "Tests compare with complex step at one point.", "anchors": ["aviary/mission/two_dof/ode/landing_eom.py:185-530"]}
{"id": "C150", "title": "Declared derivatives of the wing bending mass and of the high lift devices", "statement": "Each declared partial derivative of the FLOPS wing bending mass by factor, load factor, load fraction, composite fraction, tailoring factor, sweep, sweep penalty and span, and of the GASP slat, flap and high lift mass of every flap type, is the derivative of the output; the mass of a split flap varies continuously with the wing loading.", "quantifier": "all wings with positive dimensions and a body narrower than the span, every flap type, any number of segments, flap speeds other than 160 knots for split flaps", "why_tests_cant": "Tests compare with complex step at one point per flap type and away from the switch of the split flap.", "anchors": ["aviary/subsystems/mass/flops_based/wing_common.py:9-219", "aviary/subsystems/mass/gasp_based/fixed.py:1353-2146"]}
{"id": "C151", "title": "Declared derivatives of the lift and drag near the ground", "statement": "Each declared partial derivative of the lift and drag coefficients near the ground by altitude, wing height, span and aspect ratio is the derivative of the output; ground effect never lowers a lift that is not negative, and scales the induced drag by a factor between 0 and 1 before the lift factor acts.", "quantifier": "all real inputs with positive span, an aspect ratio other than -36 and a height other than 1 and 1.1 spans; the signs at every height up to 1.1 spans", "why_tests_cant": "Tests compare with complex step at a handful of heights and never near the two switches.", "anchors": ["aviary/subsystems/aerodynamics/flops_based/ground_effect.py:10-427"]}
{"id": "C152", "title": "Declared derivatives of passenger service, furnishings, hydraulics and interference", "statement": "Each declared partial derivative of the GASP passenger service mass by the service mass per passenger, of the furnishings of a blended wing body by the sweep, of the hydraulics mass by the pressure and of the wing and fuselage interference by Mach number, temperature and viscosity is the derivative of the output.", "quantifier": "any number of passengers; all sweeps with nonzero cosine; all pressures other than zero; all positive flight conditions whose Reynolds number times chord is not one", "why_tests_cant": "Tests run one design with far more than 19 passengers and compare at one point with a tolerance.", "anchors": ["aviary/subsystems/mass/gasp_based/passenger_service.py:30-103", "aviary/subsystems/mass/flops_based/furnishings.py:110-215", "aviary/subsystems/mass/flops_based/hydraulics.py:30-130", "aviary/subsystems/aerodynamics/gasp_based/interference.py:370-495"]}
{"id": "C153", "title": "Set-up of the propeller map, the pre-mission group and the FLOPS mass groups", "statement": "A propeller map can be set up from a file or from data in memory as soon as a Mach number is there, and every Mach number it interpolates over is available; the pre-mission group adds every system its builders build, in order, and collects the overrides of each once; the FLOPS mass group sizes every part once and gives a blended wing body its own components.", "quantifier": "all tables, all lists of builders of any length, every choice of options", "why_tests_cant": "Tests use one propeller file with the helical Mach number, data in memory are never given, and no case combines the alternative mass method with a blended wing body.", "anchors": ["aviary/subsystems/propulsion/propeller/propeller_map.py:32-103", "aviary/subsystems/premission.py:10-77", "aviary/subsystems/mass/flops_based/mass_premission.py:65-329", "aviary/subsystems/mass/flops_based/wing_group.py:22-100"]}
{"id": "C154", "title": "Options of the group that solves for angle of attack and thrust", "statement": "The group gives aerodynamics the cruise method when clean and the low speed method otherwise, gives each subsystem only its own options, and accepts subsystems of any name.", "quantifier": "all dictionaries of options and all lists of subsystems of any length, both values of clean", "why_tests_cant": "The only test has one aerodynamics builder, no options and clean=True, where the default method happens to be the cruise.", "anchors": ["aviary/mission/solved_two_dof/ode/unsteady_control_iter_group.py:52-94"]}
