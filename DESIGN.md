# Verification design: OpenMDAO/Aviary

## 1. Approach

The code under study is the Python package in `/repo/aviary`.  It is read as text; nothing is
executed.  Selected functions are transcribed, function by function and branch by branch, into
total Lean 4 functions under `lean/Verif/Model/`.  Every definition there cites the file and lines
it models and says what was simplified.  Exceptions are values (`Except Err _`), mutation is
state passing, a loop is a fold or structural recursion, external calls (numpy, OpenMDAO unit
database, file system) are parameters.

* `lean/Verif/Model/*.lean`  – models.
* `lean/Verif/Lemmas/*.lean` – helper lemmas and tactics, no claims.
* `lean/Verif/Props/*.lean`  – property theorems, one file per area, each followed by an `example`
  showing that a concrete non-trivial case meets the hypotheses.

### Numbers
* Discrete logic (containers, parsing, counting, decision trees) uses `Nat`, `Int`, `ℚ`, `List`,
  `String`, or an arbitrary linear ordered field.
* Component formulas (`compute`) and their hand written Jacobians (`compute_partials`) are modelled
  over the real numbers with `HasDerivAt`.  Floating-point rounding, overflow, NaN/inf and complex step
  are NOT modelled.  A `J[of, wrt]` entry that the code never assigns although it declared it is
  modelled as OpenMDAO's default 0; vectorised components with diagonal Jacobians are modelled per node.

### When the code violates the property
The negation is proved with a concrete witness (theorem name contains `_violated` or `not_`), the part
that does hold is proved as `…_partial`, and the finding is listed in section 4.

## 2. Trusted base

* The Lean 4.33 kernel.  Axioms allowed under every property theorem: `propext`, `Classical.choice`,
  `Quot.sound` (checked by `vcheck` and `#print axioms`).  No own axioms, no `sorry`, no `native_decide`,
  no `bv_decide`.
* The reading of `/repo`: models are hand transcriptions; no mechanical link to the Python exists.
* Python semantics assumed: dicts keep insertion order; `and/or/if` truthiness as written; ints unbounded.
* OpenMDAO: `convert_units` between compatible units is an invertible affine map; `valid_units` /
  `is_compatible` are parameters; `options`, promotion and solvers are not modelled.
* numpy: elementwise semantics, `searchsorted`, `sort`, `unique`, `reshape` with C order.

Modelled code: exactly the definitions cited in `lean/Verif/Model`.  Everything else (GUI, reports,
dashboard, plotting, OpenMDAO/dymos internals, optimisation convergence, docs) is not modelled.

## 3. Properties: what is modelled, how proved

| id | model | proof |
|----|-------|-------|
| C01 | `NamedValues` as association list + step function over ops | refinement to a last-write-wins spec, induction over the history |
| C02 | `get_val` with affine units | case analysis + affine inverse algebra |
| C03 | `update` as fold with early exit | induction over the item list |
| C04 | `AviaryValues.set_val`, `cast_type`, `check_type` on a value universe | invariant by induction over calls |
| C05 | `wrapped_convert_units` on trees | structural induction on trees |
| C06 | `enum_setter` | list branch violates; negation + partial for scalars |
| C07 | `merge_2_meta_data_dicts`, `merge_meta_data` | fold invariant; permutation invariance |
| C08 | class trees in a heap with shared references | tree merge by induction; aliasing/mutation negation |
| C09 | `add_meta_data`, `update_meta_data` | frame + uniqueness lemmas, induction over calls |
| C10 | `parse_inputs` line parser, `convert_strings_to_data` | case analysis on token lists |
| C11 | header/column attribution of `read_data_file`; `write_data_file` as token rows | induction; negation for duplicate headers |
| C12 | `separate_reserve_phases` | induction with loop invariant |
| C13,C14,C16 | `preprocess_crewpayload` | exhaustive case analysis over presence; omega; negations |
| C15 | mount consistency code of `preprocess_propulsion` | case analysis, negation + partial |
| C17 | `_count_data` / `_pack_data` on sorted groups | induction on groups, negation for singleton groups |
| C18 | `normalize`, `_normalize_throttle` | ordered-field algebra |
| C19 | `_set_reference_thrust` decision tree | case analysis over ℝ |
| C20 | `_check_data` required variables and thrust check | set reasoning; negations |
| C21,C22 | `utils/math.py` over ℝ | Mathlib analysis (`HasDerivAt`, exp/log/tanh) |
| C23,C24 | atmosphere components | `HasDerivAt`; negation for `dsos_dh` |
| C25,C26 | throttle allocation, engine scaling | finite sums; `HasDerivAt` |
| C27 | ExecComp formulas of `FuelSummationGroup` | linear arithmetic |
| C28 | structured conversion of `build_data_interpolator` | list reasoning; negation |
| C29,C30 | deck post-processing | case analysis |
| C31 | heap of dictionaries with references | sharing negation, frame lemma |
| C32 | verbosity flow of `create_vehicle` | case analysis; negation |
| C33 | fuel capacity consistency check | case analysis |
| C34 | vectorising loop of `preprocess_propulsion` | induction over engine models; negations |
| C35–C37 | thrust bookkeeping, negative thrust filter, flight idle generation of `EngineDeck` | list induction, negations |
| C38 | ExecComp and summation components of the mass group | finite sums |
| C39–C41 | 13 atmosphere tables as literals, Akima cubic pieces | kernel evaluation of finite tables, Bernstein bounds for every altitude |
| C42–C44 | `variable_info/functions.py` | list induction over promoted names and phases |
| C45 | `AtmosphereComp.compute` | field algebra over the table pieces |
| C46, C47 | path lookup, `round_it` | case analysis; floor arithmetic over ℚ |
| C48–C53 | `hamilton_standard.py`: `_unint`, `_biquad`, thrust coefficient iteration, input checks | Lagrange weights, continuity over ℝ, kernel evaluation for tables |
| C54, C55 | `preprocess_options` | case analysis over the option store; negations |
| C56, C57 | energy-state, flight-path, steady-climb and ground-roll equations of motion | field and trigonometric identities between models; negations |
| C58, C59 | GASP wing planform and buried nacelle | integrals over the span, `HasDerivAt` at the joints; negation for several engine types |
| C60–C66 | components translated mechanically (section 5) | `HasDerivAt` per Jacobian entry; negations |
| C67 | cabin tables, furnishing, oxygen and passenger service masses | case analysis, `HasDerivAt`; negations |
| C68 | `convert_geopotential_altitude` and its fixed point loop | mean value bounds, induction over passes; negation for negative altitudes |
| C69 | `AviaryOptionsDictionary` | invariant over assignments, round trip; negations |
| C70 | namelist decks (`parse_input_file`) | round trip by induction over the deck; negations |
| C71 | storing deck entries | refinement of indexed writes, order independence, soundness and completeness of the name search; negations |
| C72 | scalers that stand for masses | decision table per variable, independence of the loop, idempotence; negations |
| C73 | GASP special cases | decision tables; negations |
| C74 | FLOPS special cases | decision tables, lengths of the station lists; negations |
| C75 | Joining of phases (link_phases) | loops as lists of actions, induction over the phase list, set order as permutation, continuity of every trajectory meeting the joints; negations |
| C76 | Durations, targets, tabular flag, geometry method | invariants over the phase list, idempotence; negations |
| C77 | Time options, time guess, boundary check | decision tables, membership characterisation of the reported issues; negations |
| C78 | The objective of the optimizer | decision table, order of values under the scaled objective; negations |
| C79 | Composite objectives | induction over arguments, normalisation of weights; negations |
| C80 | Payload of off-design missions | composition with the passenger preprocessing, least free name; negations |
| C81 | Payload-range analysis | bounds of masses and payload fraction, table of corners; negations |
| C82 | Saving and reloading results | round trip by induction over the container, table check of all enums; negations |
| C83 | Masses reach the fuel summation | composition of bus, connections and summation; induction over the chain of phases; negation for one reserve phase |
| C84 | Pre mission bus variables | characterisation of parameters and links by induction, refusals; negations |
| C85 | External mass sum | equality for injective names; negations |
| C86 | Feasible points | equivalence for every kind of problem; negations against the documentation |
| C87 | Fuel burning cruise | induction over nodes, `HasDerivAt` of every Jacobian entry for every size; negation for the time |
| C88 | Electric and simple cruise | as C87; negations for range by power and for the initial distance |
| C89 | Detailed takeoff and landing | refinement of Newton's law in wind axes; negations for the flare and for the friction of the takeoff roll |
| C90 | Flight phase construction | trajectories as lists of node values, feasibility of the recorded calls; shape theorem of the built phase, negations with concrete feasible trajectories |
| C91 | Initial guesses | calls recorded with destinations, last call wins; acceptance as iff, destinations disjoint, defaults; induction over the dictionaries; negations with witnesses |
| C92 | FLOPS engine types | vectors over `Fin n`, partials along one entry; conservation by sums, monotone factors; negations with witnesses |
| C93 | GASP engine types | vectors over `Fin n` and locations over `Fin m`; disjoint slices, partials; negations with witnesses |
| C94 | Skin friction | residuals of one entry, chain rule along any motion of the inputs; intermediate values and monotonicity for uniqueness; Bernstein forms for the form factors; negations with witnesses |
| C95 | Lift dependent drag | chain rule along curves through any differentiable table; limits from both sides at breakpoints; negations with factors |
| C96 | Compressibility drag | branch by branch chain rule; entries after any earlier content; negation at taper ratio one |
| C97 | Induced drag, buffet lift | chain rule by each input; the wrong angle by periodicity and a witness |
| C98 | Lift interference factor | chain rule with hard and smooth limits; exact condition for the wrong entry |
| C99 | Body tanks | chain rule branch by branch; exact conditions for entries with extra factors |
| C100 | Wetted areas of a transport | chain rule by each of 15 inputs; homogeneity under change of units; negations |
| C101 | Values and partials of the inputs of the propeller map | exact acceptance condition of the checks; chain rule; negations |
| C102 | Maximum lift with flaps | induction over tables; strict monotonicity and intermediate value theorem for the solver loop; negations |
| C103 | Detailed wing bending factor | induction over stations; sums as interval integrals; case analysis of engine loops; negations |
| C104 | Wing distributions of the blended wing body | list induction; derivatives; sparsity as an equivalence; integral of the chord |
| C105 | Trajectories of detailed takeoff and landing | case analysis of builders; dictionary invariant by induction; telescoping sums over links; negations |
| C106 | Conversion of engine decks and propeller maps | parser round trips by induction; grid bounds; alignment of zipped tables; negations |
| C107 | Conversion of aerodynamics tables | refinement of offset bookkeeping to sequential reading; state machine over lines; permutation and order; negations |
| C108 | Engine models and the propulsion groups | dictionary folds by induction; index bookkeeping; decision logic; linear maps; negations |
| C109 | Turboprop engine models | invariant and monotone relation through the configure steps; membership by induction over folds; negations |
| C110 | Payload, cabin equipment, fuel capacities and the wing mass equation | step functions over ℤ; exact partials; intermediate value and monotonicity for the implicit state; negations |
| C111 | Engine indices of the nacelle and characteristic lengths | induction over index lists; decision of the shape; negations |
| C112 | Ramps, speed constraints, climb profile fit and tip speed limit | loop invariant of the binary search; exact partials; expansion of the squared error; log-sum-exp bounds; negations |
| C113 | Builders of aerodynamics, geometry and mass | decision logic over option dictionaries; characterisation of success; finite sets of names; counting on grids; negations |
| C114 | Metadata of the core variables | complete finite table decided by the kernel; induction over unit expressions; trie invariant; negations |
| C115 | Options given by the ODEs to their subsystems | refinement of the setup loops to closed forms by induction over the subsystems; dictionaries as association lists; negations |
| C116 | Drag build-up of the GASP aerodynamics | real analysis of the components; linear system; dependency sets of the declared partials with witnesses; limits; scaling; negations |
| C117 | Wiring of the group built by an engine deck | group as lists of subsystems and connections; exact characterisation of acceptance, undriven inputs and implicit connections; negations |
| C118 | Reading an engine deck from memory, sorting its points | induction over dictionary updates; stable sort as permutation, order and idempotence; negations |
| C119 | Aircraft values the mission analysis reads come from the user | lists of inputs per component, coverage by the parameter lists for all methods and counts; negations with the missing names |
| C120 | Declaring inputs, outputs and options from the metadata | functions branch by branch with exceptions as values; round trip of units; walk along metadata and all 761 calls, proved correct by induction and run in the kernel |
| C121 | Values set on the group are those of the user or of the metadata | loops as folds over subsystems, inputs and metadata; exact list of calls by induction; negations with witnesses |
| C122 | Loading of subsystems and configuration of the mission | decision logic branch by branch with exceptions as values; exact conditions; negations with witnesses |
| C123 | Steps of a problem from loading to running | loops over missions as folds with exceptions as values; reach and order by induction; negations with witnesses |
| C124 | Partials of design speeds, load factors and landing gear of GASP | functions of reals branch by branch; derivatives along curves; sums over any number of engine types; negations where the derivative is known and differs |
| C125 | Cabin layout of FLOPS from passengers and seats | decision tables over integers, arithmetic over the rationals; the bay iteration as a bounded loop over the reals with an invariant; derivatives |
| C126 | Rows of seats of a blended wing body (GASP) | loops with fuel, induction on rows; termination characterised |
| C127 | Wing mass of a blended wing body (GASP) | reduction to the conventional wing; derivatives over the reals, root by monotonicity |
| C128 | Assembly of an ODE from subsystems and controllers | induction on the list of subsystems; decision tables for modes and builders |
| C129 | Tables of the low speed aerodynamics | induction on the axes of a grid; index arithmetic of row-major data |
| C130 | Options of an engine deck | exact contents of the dictionaries by induction on the options; decision tables |
| C131 | Bending factor of a simple wing (FLOPS) | derivatives over the reals by the chain rule |
| C132 | Throttles normalised per flight condition | refinement of the packed loop to the groups of the deck |
| C133 | Reports of a run | induction on models, outputs and phases |
| C134 | Phases of the detailed landing | requests of each builder as a table; linear arithmetic along the links |
| C135 | Idle points and lines of converted GASP decks | closed form of the idle thrust; columns as maps of points; permutation, sortedness and counting; parser round trip |
| C136 | Phase builders of the two degree of freedom missions | typed options: declared kinds imply success; exact lists; continuity from C75; counterexamples by a general lemma on unlinked variables |
| C137 | Engines composed of parts and the battery | lookups in merged dictionaries, lists as concatenation, composition with C108; inequalities of the state of charge |
| C138 | The graphical editor of missions | invariant of a transition system over sessions of any length; specification of the file; round trip save, open, save; rounding to significant digits |
| C139 | The text of a phase info file | printer and recursive descent parser over tokens; parser inverts printer, by mutual induction on nested values |
| C140 | Tools of the documentation, table of variables | listed keys are the paths that can be looked up, by mutual induction on nested dictionaries; grouping keeps every variable once |
| C141 | Phases of the energy method and of the solved method | declared options against the options read; continuity at joints for all options |
| C142 | The file written by the conversion of a legacy deck | round trip of writer and reader over all values; frame of the file system |
| C143 | Design point, wetted area of a blended wing body, cables, sums | derivatives along all paths; bounds by induction over the stations |
| C144 | Command line, steps of a run, dashboard command, check of the installation | decision logic; induction over nested calls and subsystems; negation |
| C145 | Polynomial through the altitudes of the ascent | gradient and quadratic expansion; Vandermonde determinant; negation |
| C146 | Ties after the mission and guesses of the phases | constraints as equivalences; bounds of event times; induction over the phases; negation |
| C147 | Fuel volume of the wing of a blended wing body | closed form; derivative of every entry; ratio and negation for the gear |
| C148 | Declared derivatives the translation left open | derivative of each entry between the cut-offs; true slope and negation for the wrong ones |
| C149 | Declared derivatives of the glide before the landing | chain rules for speed and angles; derivative of all 24 open entries |
| C150 | Declared derivatives of the wing bending mass and of the high lift devices | chain rules through `W1NIR`, body to span ratio and areas; 74 entries; jump of the split flap |
| C151 | Declared derivatives of the lift and drag near the ground | chain rules through the height state; denominators positive at every height; 8 entries; signs of the effect |
| C152 | Declared derivatives of passenger service, furnishings, hydraulics and interference | true slope and uniqueness of derivatives; chain rule through the Reynolds number; bounds of a root by its 20th power |
| C153 | Set-up of the propeller map, the pre-mission group and the FLOPS mass groups | set-up as functions to exceptions; induction over the builders; full case split over the options |
| C154 | Options of the group that solves for angle of attack and thrust | loop as a fold to exceptions; induction over the subsystems; comparison with the solved flight ODE |

"partial" in the manifest means one of two things, said in the note: the statement is false of the code
(then the negation is proved with a witness and the true part is proved), or a named part has no proof yet.

### Mutation log
`seeded/LOG.jsonl` lists, for every seeded bug, the theorems that failed.  A listed theorem may fail because
its proof script no longer runs, not because its statement became false; the column therefore shows that
the suite notices the edit, and entries whose claim survived led to the "tightened" theorems.

## 4. Findings (code disagrees with the property)

Containers and metadata
* `enum_setter` on a list of strings returns only the first member; a non-enum element truncates the list (C06).
* `wrapped_convert_units` truncates integer arrays and converts one level of nesting only (C05).
* `NamedValues.copy` aliases the mapping (C31); `AviaryValues.update(NamedValues)` raises `TypeError` (C03).
* `cast_type` with `types` None always raises; `check_type` checks only the first entry of object arrays;
  units `''` are accepted anywhere; iterables are cast to bool (C04).
* Tolerance of `almost_equal` makes metadata merges order dependent and drops nested tolerances (C07).
* `update_meta_data` resets fields that are not listed (C09).
* `merge_hierarchies` mutates and aliases its inputs and overwrites silently when kinds clash (C08).

Input processing
* `parse_inputs`: `IndexError` on a line with only a name, `1e5` stays a string, a text value equal to a unit
  name is taken as units (C10).
* `create_vehicle` ignores the verbosity of the deck (C32).
* `update_dependent_options` may read an unbound or stale `outcome` (C29).
* `initialization_guessing` mixes ft and kts and is not idempotent (C30).
* `read_data_file`: duplicate headers misalign columns, blank cells shift, a numeric row before the header
  raises `UnboundLocalError`, units in parentheses break (C11).
* `separate_reserve_phases` drops phases without `user_options` (C12).
* `preprocess_crewpayload` line 259 tests the wrong variable, so `design_pax_sum_provided` is never true;
  negative class counts are accepted (C13); GASP cargo sizing is not idempotent (C16).
* Engine mounts: three engines, two fuselage, none on the wing gives an inconsistent result (C15).
* `preprocess_propulsion`: empty option arrays misalign, multidimensional arrays are duplicated per engine,
  `verbosity in aviary_options` tests `None` (C34).
* `setup_trajectory_params`: the loop variable `phases` shadows the parameter (C43).
* `setup_model_options`: the pattern `*propulsion.{name}*` also matches engines whose name starts with `name`;
  duplicate names overwrite (C44).
* `round_it` does not keep two decimals for negatives, |x| < 1, or numbers that round up a digit (C47).

Engine decks and tables
* `build_data_interpolator`: column order bug and crash on `None` outputs (C28).
* `EngineDeck`: thrust tolerance check inverted (line 471); required variable check raises only if none is
  present (529–540); global hybrid throttle limits are stored before normalisation; `_count_data` counts
  singleton groups as 2 and misses the last group in the maxima; normalising a constant column divides by
  zero; the flight idle clamp reads a padded entry; idle thrust uses the last but one point;
  `IGNORE_NEGATIVE_THRUST` raises `IndexError` when a column is empty (C17, C18, C20, C36, C37).
* Engine fuel flow scaling jumps at Mach 1 (C26 note).

Mathematics and physics
* `sigmoidX` scalar and array branches disagree, `dSigmoidXdx` scalar branch reads an unbound name;
  `smooth_int_tanh` jumps at integers (C22).
* `AtmosphereComp`: `dsos_dh` is not the derivative (C23); Venus pressure and density become negative in the
  last Akima piece (C40); density or pressure rise with altitude in 15 table columns, the `dT` table disagrees
  with the temperature slope between points (C41).
* `PreHamiltonStandard` checks `any(v) <= 0`, which compares a truth value (C50); the last column of the
  compressibility table is not monotone, zero blades are computed as eight, an even count of at least ten
  raises `IndexError` (C53).
* `preprocess_options` announces a default design type without storing it; a second run with another atmosphere
  keeps the old gravity (C55).
* `EOMRates` assumes that thrust lies along the flight path: with an inclined thrust line the "steady" climb
  loses speed; `FlightPathEOM` and the takeoff force sum do not clamp the normal force, so a larger friction
  coefficient accelerates the aircraft when lift exceeds weight (C57).
* `PercentNotInFuselage` asks for the truth value of an array, an error with several engine types (C59).
* Furnishing mass is unbound below 50 passengers for cabin widths in (5.667, 8.90]; its smooth branch multiplies
  by the option `smooth` in place of the weight `smoother`; oxygen partials are unbound for light aircraft with
  fewer than nine passengers; the passenger service partial is zero for 10 to 19 passengers (C67).
* `convert_geopotential_altitude` raises a negative number to a fractional power for altitudes below sea level (C68).
* An option declared with units refuses `None` even when `allow_none` is set; a written option whose value looks
  like a legacy tuple is unpacked on reading; a one-element tuple raises `IndexError` (C69).
- Legacy decks, `parse_input_file` (C70): a value list continued on the next line is lost; a value with exponent or a logical
  value before the next entry without comma is cut; entries on the header line are not read; a slash on the header line
  becomes part of the name; slashes inside units are removed on the closing line; a tag without text raises `IndexError`.
- Legacy decks, `process_and_store_data` (C71): Aviary names outside of namelists get a leading dot and are never recognised,
  although documented; units written in the deck have no effect; initial guesses are never filled; `INPROP.GR` always raises
  `TypeError`; names that are a prefix of a deprecated FLOPS name are skipped; metadata names without namelist (for
  example `CW(16)` and about fifteen other GASP names) cannot be reached; the second variable naming an element is not
  found; a list without its first element starts with `None`; index 0 overwrites the last element; the range
  error for booleans is built but not raised; a boolean assigned twice becomes a number.
- Legacy decks, scalers (C72): a scaler of 0 ("no weight") is deleted and the default of 1.0 gives the full weight; a value of
  exactly 5 (10) stays a scaler; the engine oil scaler is never examined.
- Legacy decks, GASP (C73): the range of off-design problems becomes a nested list; `alternate` reads a third element;
  a first class fraction without passengers uses an unbound variable; flap number 0 means the last type; reserve fuel
  between 0 and 10 is dropped because the `ValueError` is not raised (the GASP default 1.0 is in that range); a negative volume
  margin is stored in pounds, a furnishing scaler too; a strut location between -1 and 0 stays negative.
- Legacy decks, FLOPS (C74): `Aircraft.WING` is not an attribute, so a deck without horizontal tail sweep or aspect
  ratio raises `AttributeError`; a missing tail taper ratio needs the wing's.
- Phase joints (C75): fixed values are tested by truth, so an end fixed at zero counts as free: the start of a phase fixed
  at zero is still connected, and two ends fixed at zero are still joined. Ends fixed at different values are not joined
  and only a message is printed. The options of the second phase used in the loops over analytic phases are those left
  over from an earlier loop, or unbound. Consecutive Breguet phases tie the start of the second to the start of the
  first, and neither time nor distance is passed on. A mission of one phase is never configured or checked.
- Phase options (C76): the text of the error for a nonpositive duration indexes a number, so it ends in a TypeError. The
  tabular flag is set when one phase is tabular and no later phase leaves the method out, so the order of phases matters.
- Time options (C77): start bounds of later phases are dropped when time is constrained; in parallel runs of two degree of
  freedom missions they are always dropped. The duration reference is 0 for bounds (0, None). A user reference of one second
  is replaced. The time guess takes the lower bounds, not the middle, and raises TypeError without a lower bound. Equal
  values in different units are reported as different.
- Objectives (C78): the default reference of the mass objective is positive, so the final mass is minimised. The hybrid
  objective ignores the reference value, prefers less mass, and reads the end of the last phase, a reserve phase included.
  A negative reference makes the range objective prefer shorter ranges.
- Composite objectives (C79): no arguments give an empty expression. Weights that cancel divide by zero. Names differing in
  `:` and `_` collide. The mass term is scaled with a negative reference, opposite to the plain objective. More weights than
  missions are not normalised. Missions are connected with the factors of other missions.
- Off-design missions (C80): with FLOPS masses the number of passengers asked for is overridden by the class counts of the
  design, unless all are zero. Ferry flights with GASP masses keep their passengers. `fill_cargo` multiplies None for GASP.
  The guess of the gross mass for the fuel problem is ten percent below the value given.
- Payload-range (C81): the cruise bounds of the sized problem are doubled in place. Quiet runs skip the convergence check.
  The table reads a variable that is not set when the third point is absent. GASP never gives a table. Missions without
  cruise raise KeyError. The payload fraction can exceed one, and is a division by zero without payload.
- Saving results (C82): the design gross mass of the inputs is replaced by the gross mass of the mission. A list of enum
  members is changed in place to texts and comes back as its first member alone. An empty list raises IndexError, arrays and
  tuples of enum members raise TypeError. A scalar member comes back only because `enum_setter` returns at the first text.
- Reserve fuel (C83): with exactly one reserve phase the bus entry of its start is replaced by that of its end. The initial
  mass of the reserve mission stays at its default of one pound, so the reserve fuel is one pound minus the final mass.
- Bus variables (C84): a mission name that is in the metadata is neither added nor connected, without a message. Two names
  that agree after the last point are one parameter with two sources.
- External masses (C85): `:` becomes `_`, so two names can become one and the first mass is counted twice. A mass named by
  two subsystems is counted twice.
- Problem kinds (C86): the upper bound of 900000 lbm in the documentation is absent for sizing and present for several
  missions. The design of several missions may be heavier than the heaviest mission. A fuel problem forces the range to the
  design range without a target range. Solved missions ignore the kind of problem.
- Cruise (C87, C88): the elapsed time of a cruise is the whole cumulated distance over the mean speed of the last leg, so it is
  right for constant speed only and can run backwards when speed grows. The electric range sums differences of `v E / P`
  and so changes with power while no energy is used. `DistanceComp` declares its derivative by the initial distance in row 0
  only, all other rows are wrong, and the distance of a node ignores the speeds before it.
- Landing and takeoff (C89): `FlareSumForces` sums a horizontal force positive backwards and passes it unchanged to the
  accelerations, so a gliding aircraft without thrust speeds up. The friction of the takeoff roll is not limited and pushes
  forward when lift exceeds weight; `GroundSumForces` limits it but is not used.
- Flight phases (C90): a user constraint on `mach`, `altitude`, `altitude_rate` or `throttle`, of any kind and at any node,
  removes the built-in constraint of the same name, so requested end values, `no_descent` and the throttle ceiling are
  silently lost. `<state>_constraint_ref` is read and not used, the final value is used as reference, zero included. The
  reference of a control is zero when all its values are. A reference of one set by the user is replaced. A bad constraint
  type of a subsystem raises an AttributeError while the message is made. The energy-state ground roll connects the
  altitude rate to `dh_dr`, which `EnergyStateODE` does not have.
- Initial guesses (C91): a guess under `states:mass` or `controls:mach` is overwritten by the default that is added because
  `mass` or `mach` is missing. `mass_initial` and `distance_initial` only fix the state; the value is that of the guess.
  With a free start and no lower bound the default guess for altitude or Mach number is `[None, None]`. A Python integer
  raises TypeError in `process_guess_var`. The solved missions replace or drop the user's guesses for Mach number and
  altitude and raise on a scalar guess. The ascent times are set without the prefix of the mission. `EnergyPhase` and
  `SolvedTwoDOFPhase` share one dictionary of guesses, so the kind of `time` and `distance` depends on the import order.
  `_add_initial_guess_meta_data` does not raise on repeats. `phase_info_to_builder` always returns the type registered first.
- Engine types, FLOPS (C92): with the linear law a small engine has a negative mass, and the mass jumps where the scaler
  reaches 0.3. The derivative of the average nacelle diameter takes each type as if it were the only one, so the partials of
  starter and anti-icing mass are wrong for several types. The nacelle mass of a blended wing body already holds all engines
  and is multiplied by their number again in the summation. The capacity partial of the fuel system uses the number of
  engines where the output uses the reduced count. The span partial of the gear length does not vanish when the engine
  location is given in inches. The pod mass of a type without engines has a wrong partial by the engine mass.
- Engine types, GASP (C93): `pylon_mass` partials by nacelle mass and area miss the nacelle scaler. `WING_LOCATIONS` has one
  entry per pair of engines, but the slices take one entry per engine: four engines are counted twice on the wing, and the
  second type of two gets an empty slice and is not counted at all. The partial by the location uses the default additional
  mass. Piston engines silently get no oil.
- Skin friction (C94): `self.TAW` is set from temperature and Mach number in `guess_nonlinear` and kept in the component, so
  the partials of the wall temperature residual by both inputs lack a term at every flight condition. The form factor of
  surfaces is negative for thickness ratios from about 0.35 to 0.5. Without laminar flow the `Re` partial is not written and
  keeps the value of an earlier call. The partials by laminar percentages below zero are not zero. The two coefficients the
  comment calls out of order are needed: in the other order the form factor of bodies is negative.
- Lift dependent drag (C95): `edge_interp` divides by the fixed spacing 2.0, which is that of the tables 4 to 6 only; the drag
  is discontinuous in the aspect ratio elsewhere (factors 4, 20 and 10).
- Compressibility drag (C96): a taper ratio of one is replaced by 0.5 in `compute` but not in `compute_partials`.
- Induced drag and buffet lift (C97): both compute `SW25 / scipy.constants.degree`, dividing degrees by pi/180 instead of
  multiplying.
- Lift interference factor (C98): `dnumer` is divided by `bbar`, so the entry by the lift ratio is wrong; the partials ignore
  the replacement of `bbar` and `bbar` (a ratio) is compared with 0.01 of the span in feet.
- Body tanks (C99): with smoothing, factors 1/50 and 1/110 are applied twice and one entry uses the wrong chain.
- Wetted areas (C100): CRTHTB adds a ratio to a length (CROOTB multiplies); a missing vertical tail has chord 1.0.
- Propeller map inputs (C101): `any(x) <= 0.0` tests a truth value; negative inputs pass all checks but the diameter's.
- Flaps (C102): `optimum_flap_defls` of double and triple slotted (55) and Fowler flaps (30) are not the maxima of VLAM6 (40);
  tables are continued linearly, so Fowler flaps beyond 63 degrees take lift away.
- Detailed wing (C103): the mean load path sweep starts at the second interval; `inertia_factor` stays 0 for an engine type with
  at most one engine on the wing, so rear engines give full relief although the docstring says none; the blended wing body
  multiplies chord and thickness of the input stations by the scaling twice; stations may end before the tip.
- Blended wing body wing (C104): rows declared for BWB_LOAD_PATH_SWEEP start after the root; the length check is 2 where the message says 1.
- Detailed takeoff and landing (C105): `altitude_ref` is used as `upper` in `TakeoffLiftoffToObstacle`, whose default of 1 ft makes
  the obstacle constraint infeasible; `TakeoffDecisionSpeedBrakeDelay` keeps the constraint v/v_stall >= 1.2 of its base class
  (and sets `default_options_classs`, a misspelt attribute); default `mic_range` of the last two phases agree, so the last covers
  no distance; an abort without a brake delay and acoustic phases without the first are ignored silently; distance and speed
  are not linked at the landing obstacle.
- Engine deck conversion (C106): thrust and fuel flow are paired by position, so tables with different altitudes give thrust of
  another altitude; `method` is a single variable changed inside the loop over altitudes and fields, so one altitude with two Mach
  numbers makes all later tables linear; `np.unique` sorts coordinates but `reshape` keeps the values in file order, so a table with
  descending Mach numbers is mirrored; an empty line of a FLOPS deck is a data point of zeros.
- Aerodynamics table conversion (C107): `path / name + '_aviary_CDI'` is a TypeError, so FLOPS needs an output file; `write_data_file`
  gets the comments as `outputs`, so they are not written and all columns are labelled inputs; `line.strip() == ['']` is never true;
  `read_units` is never reset; the step is added to the maximum twice; the counts of a FLOPS file are not used, so with two lift
  coefficients a missing row is filled with the counts of the next table.
- Propulsion groups (C108): `om.MuxComp()` keeps its default of two slots, so three engine types cannot be connected;
  `get_mass_names` calls `update` on a dictionary with a list; `preprocess_inputs` of the propulsion builder returns mass names;
  the type of the options is checked after `in` and `set_val` have been used on them.
- Turboprop (C109): `a or b and c` lets a gearbox output named RPM take the engine's RPM away from the gearbox; after the engine's RPM
  went to a gearbox that gives none, the propeller is connected to `rpm_source`, which has neither a control nor a value;
  `gearbox_inputs` is unbound without a gearbox; `preprocess_inputs` calls `get_mass_names`; the greatest torque of a motor map
  is stored without its units.
- Small masses (C110): without unit load devices a container of 165 lbm is charged, and a demand that fills containers exactly
  gets one more; `FuelCapacityGroup` is a cycle that is undetermined without data, has no solution when only the auxiliary
  capacity or all of them are given, and gives a negative fuselage capacity with the default total of 0.
- Nacelles (C111): `calc_idx` mixes positions and indices, so a type without engines shifts the fineness of the others and makes
  `compute_partials` fail with a shape error; without engines the mux reads inputs that were never declared.
- Ramps (C112): `TanhRampComp` declares `rows` of length nn and `cols` of length nn·size; `SpeedConstraints` multiplies the Mach
  constraint with `EAS_target`, whose default is 0.
- Builders (C113): the aerodynamics builder asks for `free_flaps_data`/`free_ground_data`, the group declares `flaps_aero_data`/
  `ground_aero_data`, so `tabular_low_speed` always fails; the message about missing tables subtracts truth values from names and
  always lists all three; `solve_alpha` raises for FLOPS; without a method the other options are dropped; for a blended wing body
  with tables `add` is called on a list; `tableShape` is wrong for a grid with one value on the second axis; geometry codes given
  as (GASP, FLOPS) pass the check but build nothing; the mass report overwrites the loop variable, so every engine type is
  listed with the mass of the first, and a sum whose first part is missing is converted to units 'unknown'.
- Metadata (C114): `Aircraft.Battery.VOLUME` has the units `ft*3`; `mach_rate` is unitless; `specific_energy` has units m/s.
- Options of the ODEs (C115): `flight_ode`, `breguet_cruise_ode` and `simple_cruise_ode` update the user's dictionary in place with
  their own options, although the comment says these are defaults; a table (`aero_data`) then always raises, `external` is
  replaced, and another ODE with the same dictionary gets `cruise`. The clean ascent of `takeoff_ode` passes `retract_gear` and
  `retract_flaps` to a group that does not declare them. `groundroll_ode` and `unsteady_solved_ode` keep one dictionary through
  the loop, so an option of propulsion reaches aerodynamics. `flight_path_ode` and `landing_ode` ignore the user's options.
  `aviary_group.py:492-503`: the flag `tabular` is set by any phase, and reset only by a phase without options, so it depends on the order.
- GASP drag (C116): `SA6 = ff_wing * fwre` lacks `Aircraft.Wing.DRAG_FACTOR`, which is in `few`, so the factor does not reach the
  profile drag of the wing; `AeroGeom.setup_partials` declares all partials zero and then forgets `Aircraft.Strut.CHORD` (an output
  of the geometry) for `SA5` and `SA7` and the ten drag factors for `SA7`; `DragCoefClean` declares none for four of its factors;
  `DragCoef` computes `c1` without the chord, unlike `GroundEffect`; `fstrtre` replaces the array instead of its good entries;
  `np.any(denom) == 0.0` tests whether all are zero; without a strut `festrt` is still added.
- Engine deck wiring (C117): `self.inputs` is set by `read_data_file` only, so `build_mission` of a deck given in memory raises
  `AttributeError`; with `GLOBAL_HYBRID_THROTTLE` but not `GLOBAL_THROTTLE` the group connects `fixed_max_throttles.throttle_max`, which
  does not exist; `hybrid_throttle_max` is computed but never connected to `max_interpolation`; `RPM` is in `no_scale_variables` and
  `skipped_variables` but not in `skip_variables` of `EngineScaling`, so the group promotes an `rotations_per_minute` of zero (and feeds
  it back to the interpolation if RPM is an input of the deck).
- Engine deck data (C118): two aliases of one variable overwrite each other silently; aliases in memory are case-sensitive although
  the comment above the table says otherwise; `TORQUE` has no entry in `aliases`, so its units are not converted.
- Mission parameters (C119): `get_parameters` of the GASP aerodynamics lists none of the six `drag_factor`s (fuselage, horizontal tail,
  nacelle, strut, vertical tail, wing) nor `interference_drag_factor`, `pylon_drag_factor`, `excrescence_drag_factor`,
  `percent_excrescence_drag`, `compressibility_drag_factor` (read in gaspaero.py:742-752 and 1365), so the mission uses the defaults of
  the metadata whatever the user gives; `Mission.Takeoff.ROLLING_FRICTION_COEFFICIENT` is in no list (takeoff_ode.py:322 sets 0.02);
  the tabular low-speed group lacks gross mass and wing area, FLOPS tabular lacks the lift-dependent and zero-lift factors.
- Declarations (C120): `add_aviary_option` never looks at the units given with a value, so an unknown unit is only found when a later
  value is set; for options with units the extra arguments are dropped; units of another dimension raise OpenMDAO's `TypeError` and not
  the documented `ValueError`; `Aircraft.Design.PERCENT_EXCRESCENCE_DRAG` is an option in the metadata but declared as an input
  (gaspaero.py:752, skin_friction_drag.py:81), and `aviary_group.py:156-157` skips options when it sets values, so its default is used.
  `DragPolar.setup` (flops_based/drag_polar.py:41-43) passes an array as the third argument, which is `units`, and `units` again: always
  `TypeError` (the class is not used).
- Input defaults (C121): `AviaryGroup.configure` sets only the units, not the value of the user, of a variable that is read by
  `shape_by_conn` inputs only (aviary_group.py:149 and 177), and `AviaryProblem.setup` does not set the value later; when groups declare a
  variable with different sizes, the last one decides how the default is broadcast (aviary_group.py:140-147).
- Configuration (C122): `load_external_subsystems` refuses an object that is no builder only with verbosity BRIEF or louder
  (aviary_group.py:388); with QUIET it is appended. `add_post_mission_systems` reads `subsystem_options` from `pre_mission_info`
  (aviary_group.py:842-847). Guesses of a type other than state and control are dropped (aviary_group.py:1544-1550). A phase-info modifier
  with postponed annotations is refused (aviary_group.py:1567-1583). The two-degrees-of-freedom configurator ties the mass to
  `traj.groundroll` and `taxi.mass` even without take-off or with another first phase (two_dof_problem_configurator.py:355-364). The solved
  configurator needs bounds or a scaler for a fixed duration (solved_two_dof_problem_configurator.py:134-170), passes `None` for the
  initial scaler when one bound is missing, and gives no default for `include_takeoff` (`KeyError` at aviary_group.py:610). Settings of
  `phase_info` before and after the mission are aliased, so defaults are written into the dictionary of the caller.
- Steps of a problem (C123): `add_aviary_group` (aviary_problem.py:295-298) builds a `ValueError` for a problem of another type but does not
  raise it, so the mission is added and no later step reaches it. Missions are preprocessed when they are added, and external subsystems of
  several missions can only be loaded afterwards, so they are missing from the list of subsystems unless `check_and_preprocess_inputs` is
  called again; an engine model then stands beside the default engine deck. `load_external_subsystems` merges the metadata of the last group
  only, and ends in UnboundLocalError without groups (line 244); so does `add_phases`, while `build_model` does nothing. `setup` overwrites
  the metadata of each group by that of the problem. `max_iter` is ignored for optimizers other than SNOPT, IPOPT and SLSQP.
  `set_design_range` and `promote_inputs` ignore unknown mission names. The payload-range diagram is never made for several missions.
- Loads and gear of GASP (C124): `LoadSpeeds` sets the partials of the cruise speed to 0 and 0.9/1.15 for category 1 whatever the limit
  does (design_load.py:207-210). With smoothing `LoadFactors` and `BWBLoadFactors` use the derivative of the wrong sigmoid by wing loading
  (gross mass, exposed area) and density ratio, the factor 50 for 25 by the lift curve slope, and 0 by the dive speed.
  `TotalLandingGearMass` omits the scaler in the entries by coefficient, touchdown mass, clearance ratio and diameter; the entry by
  diameter has a last term with wrong sign and without the KS weight; the entry by wing position is not declared though the mass depends on it.
- Cabin layout of FLOPS (C125): six seats abreast are set before the test for less than 60 passengers asks for five (fuselage.py:246-271);
  the narrow aisle of business class is assigned to first class (288-289); `elif num_economy_class_pax > 600` follows `> 320` and is never
  reached (379-386), so that the 321st passenger shortens the cabin; a class without passengers and with 0 seats abreast divides by zero
  (406-409); only the first type of engine decides about a centre engine (404-405). For a blended wing body `ceil(0.5 + w / b)` counts a bay
  too many (555); a number of bays limited by their width is smoothed and no integer (775); width and number limited together can widen
  the cabin and push the sidewall below its minimum (768-773); no sweep gives no width.
- Rows of a blended wing body (C126): the loops never end when the cabin cannot hold the aisles and one seat (fuselage.py:552, 607, 663);
  `EL_TC_ptr` behind business class is overwritten without the pitch of the last row (643, 650); no economy passengers leave
  `prev_num_seats_TC` unbound (679); the width beside the last row is taken from the cabin, not the row (683).
- Assembly of an ODE (C128): `ALTITUDE_RATE`, `CONSTANT_ALTITUDE` and `FLIGHT_PATH_ANGLE` of `AlphaModes` have no branch in
  `add_alpha_control` and raise `UnboundLocalError` (two_dof_ode.py:36-155); `prop_group=om.Group()` is a default made once, so that a
  second ODE adds `thrust_balance` to the same group (171, 190); the accelerating, cruising, flight and takeoff phases in two degrees of
  freedom and the detailed takeoff and landing phases do not pass `user_options`, so that their ODEs hand an empty dictionary to the
  subsystems (phase_builder.py:186-195). The energy method and the solved phases do pass them.
- Tables of the low speed aerodynamics (C129, table_based.py): `_structure_special_grid` takes the angle to vary fastest, so that a full grid
  in another order silently gets the angles of other rows (682-693); one angle per pair is blown up; a first pair with fewer angles makes the
  columns differ in length. With connected training data flaps and ground still look up `delta_lift_coefficient` (564, 629), and the free
  table has no `lift_coefficient_max` although it is promoted. The `method` argument is overwritten (483-486). The last angle is taken for the
  one with most lift. The ramps of the flaps follow `retract_gear` (309, 320).
- Options of an engine deck (C130): `build_engine_deck` copies only the variables of `Aircraft.Engine` (utils.py:165-202), so that a deck with
  `GEOPOTENTIAL_ALT` finds no `Settings.ATMOSPHERE_MODEL` (engine_deck.py:316-318), the verbosity is lost, and `meta_data` is not handed on
  (205-219). `options=None`, the default, fails at `in options` (193). `EngineModel.update` calls `_setup` without `data`, which `EngineDeck`
  requires (298), and with data it does not repeat the checks.
- Throttles per flight condition (C132, engine_deck.py): a condition with a single point has the index 1 (1652-1676, 1701), so that
  `_normalize_throttle` normalises it together with the first point of the next condition, everything after it shifts, and the throttle
  column becomes longer than the others. The limits stored for throttles are those after normalisation, always 0 and 1.
- Reports (C133): `var.lstrip(f'{name}.')` takes off characters, not the prefix (reports.py:407), so that with several missions and a name
  with an `a` every `aircraft:` input given is reported as not given; `df.drop_duplicates()` has no effect (601) although rows are said to be
  eliminated; a variable with several columns is flattened and no longer belongs to the times; a column whose first phase has no units mixes
  units; a mission without phases raises `UnboundLocalError` or shows the totals of the mission before (302-306).
- Phases of the detailed landing (C134): the altitude of the obstacle and flare phases has `lower=0` (detailed_landing_phases.py:540, 788),
  so that an airport below the sea has no solution with a touchdown at its altitude; the altitude at the touchdown is that of the initial
  guess, not that of the airport; without the approach phases the mass at the obstacle is neither fixed nor linked (553); the three phases
  in the air fail for the default `aviary_options=None`; the check for a missing obstacle height (591) cannot be reached by a missing key.
- Converted GASP decks (C135): an idle point of throttle zero is added at every condition without looking whether the deck has one
  (engine_deck_conversion.py:636-640); a deck that begins at throttle zero gets two lines with the same Mach number, altitude and throttle
  and different thrusts.
- Two degree of freedom phases (C136): no builder links the flight path angle, a state of every phase in the air (takeoff_phase.py:291-308), so
  it may jump between two phases of the climb out; an acceleration takes its altitude from an option and is not linked to the altitude of
  its neighbours (accel_phase.py:158-165). Four builders give a default under the name `initial_time_direct_link`, which no option has: the
  option is `time_initial_direct_link` (aviary_options_dict.py:426-493).
- Turboprop (C137): `preprocess_inputs` calls `get_mass_names` of gearbox and propeller (turboprop_model.py:535-543) and hands the list of names to
  `AviaryValues.update`, which fails for any name, so for the default gearbox always; `get_bus_variables` calls a method of the base class
  that always raises (:446-454). Bus variables after the mission, given by phase, are merged with a shallow `update` (:563-579): the later
  part replaces all entries of a phase. `get_controls` renames the rotational speed, `get_initial_guesses` does not. The masses of an engine with the
  default gearbox cannot be collected by the propulsion builder (propulsion_builder.py:261-268).
- Mission editor (C138, graphical_input.py): deleting the first point keeps the order of its phase, so the phases that remain take over the orders
  of their predecessors (:626-642). A click at an earlier time than the last point adds no point but repeats the last row of the table
  (:549-551); the boxes no longer fit and `save` then drops every one that is ticked (:1539-1541). Deleting a point, or hiding and showing the
  boxes, unticks them all. Opening a file when all points are deleted draws only its last row (:656-665). A negative default is
  rejected for one list only, the lists then differ in length (:312-331). The bounds of a duration start at 0.1 of whatever unit
  (:1615-1618): below 1/15 they are empty, below 1/10 they exclude the duration. The first start is bounded by (0, 0) also for missions that
  start later (:1623-1632). `apply_units` sets the rounding to 0 where the limit has three digits (:1349-1350), which is used as
  significant digits on saving: 35000 ft become 10000 m. "Cancel" in the advanced options sets all orders to 3 (:1024-1027).
  A mission of one point is saved but cannot be opened, one of no points cannot be saved. A file with more phases than its
  first phase has segments cannot be opened; with fewer it is filled up with points at time zero and cannot be saved (:1452-1466).
- Text of phase info (C139): `_format_phase_info_value` prints a tuple of one item as `(x)` when it fits on one line (graphical_input.py:42-44), which
  python reads as `x`. `create_phase_info` puts elements of numpy arrays into the dictionary (:1612, :1671-1703) and prints them with `repr` (:47): since
  numpy 2 that is `np.float64(…)`, and the file imports nothing, so that every saved file raises `NameError` when it is opened or run.
- Tools of the documentation (C140): `check_value` compares arrays with `!=` (doctape.py:163), so that equal arrays of two or more elements raise.
  `glue_function_arguments` compares `str(param.default)` with a class by identity (:600), so that a default `<class 'inspect._empty'>` is glued for
  parameters that have none. `add_attributes` of `glue_class_options` is not used (:607-636). In exact mode `check_args` does not pass `error_type` on
  (:246-249). `gramatical_list([])` raises `IndexError`. The table of the dashboard gives a variable that is alone in its group the name of the group
  (dashboard.py:395): `aircraft:wing:area` alone is shown as `aircraft`.
- Solved phases (C141): `SolvedTwoDOFPhase.build_phase` asks again for the outputs drag, lift, required thrust and velocity that the base class has asked
  for (solved_twodof_phase.py:262-266 after flight_phase_builder.py:318-346), drag and lift without the units, velocity with other units.
- Converted files (C142): a float such as `1e-05` is written without a point and read back as text (fortran_to_aviary.py:170, functions.py:116); a list whose
  first element is not in the deck is written with an empty field and read back one place forward (lines 416, 170; process_input_decks.py:169); an
  unknown name without a value is written as a row with a name only, which stops the reader with `IndexError` (lines 184; process_input_decks.py:180);
  a comma in the name of the deck puts the comment in quotes and stops the reader in the same way (line 75); the guesses of a GASP deck are always 0.
- Design point (C143): the design lift coefficient jumps at a thickness of 0.065 (for an aspect ratio of 10 from above 0.8 to below 0.6;
  premission_aero.py:53). The side of the fuselage of a blended wing body, in feet, passes through the test for fractions, so a body up to 2.2 ft wide has it
  at the wrong place (wetted_area_total.py:612, 635); the first given station is always replaced; `GLOVE_AND_BAT` is an input without effect.
- Command line (C144): `aviary convert` without a type calls `_exec_convert` without end, because `set_defaults` gives the attribute
  `executor` that the test for a missing type looks for (cmd_entry_points.py:84, 93, 163). `aviary script.py` is refused as an invalid choice, a script is
  run only with arguments after `--` (cmd_entry_points.py:172-179); `aviary -- x` and `aviary -h -- x` raise an `IndexError`
  (cmd_entry_points.py:178). `aviary check` exits with 0 when the check fails. `aviary dashboard --port 1` raises a `TypeError`, as
  `argparse.ArgumentError` takes two arguments (dashboard_cmd.py:83). A level given to `load_inputs` "for just this method" replaces that of the problem
  (aviary_problem.py:209). `run_aviary` with a deck of type multi_mission ends in an `UnboundLocalError` (aviary_problem.py:244).
  `reload_aviary_problem` never loads external subsystems or engine models, and its `metadata` is used for reading only.
- Polynomial fit (C145): `Polynomial.convert()` drops zeros at the end of the coefficients, so altitudes that are all zero leave one
  coefficient, which is broadcast into `A` and then cannot be unpacked into four names (polynomial_fit.py:56-65).
- Guesses (C146): `set_initial_guesses` with a parent problem loops over `parent_prob.traj` but reads `self.mission_info`, so a phase
  of the parent that the group does not have is a `KeyError` (aviary_group.py:1471-1490). `add_post_mission_systems` with two degrees of
  freedom fetches the phase `ascent` and fails for a mission without one (two_dof_problem_configurator.py:385).
- Wing volume of blended wing bodies (C147): with smoothing the partial by the gear location lacks the factor 6, divides by `mu` twice,
  misses `center_chort` in `dCFUEL`, the chord term in `dSW_NFX` and the span term in `dAR_NFX` (wing.py:615, 647, 667, 700-702).
- Smooth factors of the GASP wing (C148): the partial of `c_gear_loc` carries a spurious factor 100 (fixed.py:244-247).
- Smooth design loads of GASP (C148): `dV9_dmax_airspeed` multiplies two terms that must be added (design_load.py:490-499); the partial of
  `density_ratio` uses `SigF` for `SigE` below category 3 and `sigmoidX(.., -0.01) * SigF` for `sigmoidX(.., 0.01) * DSigF` from category 3 on
  (design_load.py:509-557).
- Smooth wing fuel of GASP (C148): the partials of `max_wingfuel_mass` and of the structural volume by the masses add
  `OEM_wingfuel_wt * dSigmoidXdx` where it must be subtracted, those by volume and density do so with `volume_wingfuel_wt` (fuel.py:670-705).
- Split flaps of GASP (C150): the two formulas of `flap_mass` do not meet at a flap speed of 160 knots; the mass jumps by more
  than two percent, so no derivative exists there although one is declared (fixed.py:1489-1497).
- Passenger service of GASP (C152): with 10 to 19 passengers the output is linear in the service mass per passenger, with slope
  the number of passengers, but `compute_partials` declares zero (passenger_service.py:56-58 against 71-90).
- Propeller map (C153): `outputs` is only bound when the file is read, so `propeller_data` in memory always ends in an
  `UnboundLocalError` (propeller_map.py:55-100). With both Mach numbers in the file, "Using Mach number" is printed but the helical one
  stays an interpolation input without source.
- Pre-mission group (C153): the lookup by name collects the overrides twice when a builder that builds nothing shares a name.
- FLOPS masses (C153): `USE_ALT_MASS` with a blended wing body combines its wing and aft body with the fuselage and furnishings of a
  tube; no check forbids it. A blended wing body without detailed wing gets the simple bending factor although a comment rules it out.
- Angle of attack and thrust group (C154): `subsystem_options['method']` is set to `low_speed` when clean and `cruise` otherwise, the
  reverse of the solved flight ODE, and in the dictionary of subsystems, so no subsystem sees it and `clean` has no effect
  (unsteady_control_iter_group.py:62-69). The user's dictionary keeps the entry; `kwargs` is not reset between subsystems. The group is
  used by its test only.

## 5. Components translated mechanically

`Verif/Comp/*.lean` are written by a translator from the Python text of `compute` and `compute_partials`.

* One definition per assigned variable, in the order of the code; `out_x` is the output `x`, `J_x__y` the entry of
  output `x` by input `y`, `d_x__y` the theorem that `J_x__y` is the derivative of `out_x` in `y`.
* `if` on inputs becomes `if`; options are fixed, and each combination of options is a variant (suffix of the
  namespace). A `_partial` bundle lists in the file header which entries are wrong or not proved.
* Numbers are real and decimal literals are exact fractions. Vector inputs are treated at one node. Factors that
  are exactly 1.0 are dropped. A partial that is declared with a value is that value, an undeclared one is 0.
* Branch conditions are assumed strict: at the boundary itself the code has no derivative in general.
* Hypotheses are signs of physical inputs, non-zero denominators, arguments of roots and logarithms. A concrete
  point that meets them stands beside the theorem or in `Props/ComponentExamples.lean`.
* Not translated: components with sums over engine types, tables, `np.piecewise`, or solver calls. Some of these
  are modelled by hand (`Props/GaspCabin`, `Props/BuriedNacelle`, `Props/ComponentFindings`).

Entries proved to differ from the derivative
* Missing mass scaler: `HorizontalTailMass`, `VerticalTailMass` (gasp `fixed.py`), `SurfaceControlMass`
  (gasp `control.py`), `BWBFuselageMass`, `FuselageMass` by `mat` (gasp `fuel.py`).
* `UnsteadySolvedFlightConditions`: no partials of `dtas_dt_approx` by density and equivalent airspeed, or by
  Mach number and speed of sound.
* `BWBFuselageParameters1`: hydraulic diameter by aisle width, right only without additional pressurized width.
* `BWBFuselageSize`: wetted area by additional pressurized width multiplies by `diag_a_c` where it should divide
  by `diag_a_a`.
* `TransportFuelSystemMass`: uses the engine count where the output uses the distributed engine count factor.
* `BWBWingVolume`: see C147 (modelled by hand in `Model/BwbVolume`, which also proves the entries the translator left open).
* `MassParameters`, `LoadParameters`, `FuelComponents` with smoothing: see C148, which also proves the open entries of `StrutGeom` and `FuselageWettedArea`.
* `GlideConditionComponent`: the entries left open are proved in C149.
* `WingBendingMass`, `HighLiftMass`: the entries left open are proved in C150.
* `GroundEffect`: the entries left open are proved in C151.
* `PassengerServiceMass`, `BWBFurnishingsGroupMass`, `TransportHydraulicsGroupMass`, `WingFuselageInterferenceMission`: see C152.
* `InducedDrag`: see C97.
* `LoadSpeeds`, `LoadFactors`, `BWBLoadFactors`, `TotalLandingGearMass`: see C124 (modelled by hand in `Model/GaspLoads`).

Entries seen to differ but without a theorem
* `TransportHydraulicsGroupMass` by system pressure: the constant is -0.1995 · 3000^0.35 rounded to 32 digits, so it
  is not exact over the reals; this is not an error of the code.
