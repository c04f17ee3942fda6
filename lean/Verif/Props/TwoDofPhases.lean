import Verif.Model.TwoDofPhases
import Verif.Props.LinkPhases

/-! ## C136: phase builders of the two degree of freedom missions -/

namespace Verif.TwoDofPhases

open FlightPhase (Phase StateOpts CtrlOpts StateCall CtrlCall Con Err addState addControl)

/-! ### Options that were declared can be read -/

/-- Names and kinds of declared options. -/
def kinds (ds : Decls) : List (String × Kind) := ds.map fun d => (d.1, d.2.kind)

/-- Every declared option is there, with a value of the declared kind. -/
def WellTyped (ds : Decls) (o : Opts) : Prop := ∀ k ∈ kinds ds, ∃ v, o k.1 = some v ∧ v.kind = k.2

/-- The number of an option that may be `None`. -/
def optV (o : Opts) (k : String) : Option ℚ := match o k with | some (.opt v _) => v | _ => none

/-- The number of an option. -/
def numV (o : Opts) (k : String) : ℚ := match o k with | some (.num v _) => v | _ => 0

/-- The truth value of an option. -/
def flagV (o : Opts) (k : String) : Bool := match o k with | some (.flag b) => b | _ => false

/-- The count of an option. -/
def intV (o : Opts) (k : String) : Option ℕ := match o k with | some (.int b) => b | _ => none

/-- The plain number of an option. -/
def rawV (o : Opts) (k : String) : ℚ := match o k with | some (.raw v) => v | _ => 0

/-- The bounds of an option. -/
def pairV (o : Opts) (k : String) : Option ℚ × Option ℚ × String :=
  match o k with | some (.pair l h u) => (l, h, u) | _ => (none, none, "")

variable {ds : Decls} {o : Opts}

theorem opt_ok (h : WellTyped ds o) {k : String} (hk : (kinds ds).contains (k, .opt) = true) :
    opt o k = .ok (optV o k) := by
  obtain ⟨v, hv, e⟩ := h _ (by simpa using hk)
  cases v <;> simp [Val.kind] at e
  simp [opt, optV, hv]

theorem num_ok (h : WellTyped ds o) {k : String} (hk : (kinds ds).contains (k, .num) = true) :
    ∃ u, num o k = .ok (numV o k, u) := by
  obtain ⟨v, hv, e⟩ := h _ (by simpa using hk)
  cases v <;> simp [Val.kind] at e
  simp [num, numV, hv]

theorem flag_ok (h : WellTyped ds o) {k : String} (hk : (kinds ds).contains (k, .flag) = true) :
    flag o k = .ok (flagV o k) := by
  obtain ⟨v, hv, e⟩ := h _ (by simpa using hk)
  cases v <;> simp [Val.kind] at e
  simp [flag, flagV, hv]

theorem int_ok (h : WellTyped ds o) {k : String} (hk : (kinds ds).contains (k, .int) = true) :
    int o k = .ok (intV o k) := by
  obtain ⟨v, hv, e⟩ := h _ (by simpa using hk)
  cases v <;> simp [Val.kind] at e
  simp [int, intV, hv]

theorem raw_ok (h : WellTyped ds o) {k : String} (hk : (kinds ds).contains (k, .raw) = true) :
    raw o k = .ok (rawV o k) := by
  obtain ⟨v, hv, e⟩ := h _ (by simpa using hk)
  cases v <;> simp [Val.kind] at e
  simp [raw, rawV, hv]

theorem pair_ok (h : WellTyped ds o) {k : String} (hk : (kinds ds).contains (k, .pair) = true) :
    pair o k = .ok (pairV o k) := by
  obtain ⟨v, hv, e⟩ := h _ (by simpa using hk)
  cases v <;> simp [Val.kind] at e
  simp [pair, pairV, hv]

/-- All options that `add_state` reads are declared. -/
def hasState (ks : List (String × Kind)) (n : String) : Bool :=
  ks.contains (n ++ "_initial", .opt) && ks.contains (n ++ "_final", .opt) && ks.contains (n ++ "_bounds", .pair) &&
  ks.contains (n ++ "_ref", .num) && ks.contains (n ++ "_ref0", .opt) && ks.contains (n ++ "_defect_ref", .opt) &&
  ks.contains (n ++ "_solve_segments", .flag) && ks.contains (n ++ "_constraint_ref", .opt)

/-- All options that `add_control` reads are declared. -/
def hasControl (ks : List (String × Kind)) (n : String) : Bool :=
  ks.contains (n ++ "_initial", .opt) && ks.contains (n ++ "_final", .opt) && ks.contains (n ++ "_bounds", .pair) &&
  ks.contains (n ++ "_ref", .num) && ks.contains (n ++ "_ref0", .opt) && ks.contains (n ++ "_polynomial_order", .int) &&
  ks.contains (n ++ "_optimize", .flag)

/-- The request for a state: every argument from its own option. -/
def stateCall (o : Opts) (n rate : String) : StateCall :=
  ⟨n, (optV o (n ++ "_initial")).isSome, (pairV o (n ++ "_bounds")).1, (pairV o (n ++ "_bounds")).2.1,
    (pairV o (n ++ "_bounds")).2.2, rate, numV o (n ++ "_ref"), optV o (n ++ "_ref0"), optV o (n ++ "_defect_ref"),
    flagV o (n ++ "_solve_segments")⟩

/-- The constraint on the final value of a state. -/
def finalCon (o : Opts) (n : String) : List Con :=
  match optV o (n ++ "_final") with
  | none => []
  | some f => [{ target := n, loc := some .final, equals := some f, units := some (pairV o (n ++ "_bounds")).2.2, ref := some f }]

/-- A state is added with the values of its options. -/
theorem state_ok (h : WellTyped ds o) {n : String} (hn : hasState (kinds ds) n = true) (rate : String) (p : Phase) :
    state o n rate p =
      .ok { p with states := p.states ++ [stateCall o n rate], cons := p.cons ++ finalCon o n } := by
  simp only [hasState, Bool.and_eq_true] at hn
  obtain ⟨⟨⟨⟨⟨⟨⟨h1, h2⟩, h3⟩, h4⟩, h5⟩, h6⟩, h7⟩, h8⟩ := hn
  obtain ⟨u, hu⟩ := num_ok h h4
  have hr : readState o n = .ok { initial := optV o (n ++ "_initial"), final := optV o (n ++ "_final"), lower := (pairV o (n ++ "_bounds")).1, upper := (pairV o (n ++ "_bounds")).2.1, units := (pairV o (n ++ "_bounds")).2.2, ref := numV o (n ++ "_ref"), ref0 := optV o (n ++ "_ref0"), defectRef := optV o (n ++ "_defect_ref"), solveSegments := flagV o (n ++ "_solve_segments"), constraintRef := if (optV o (n ++ "_final")).isSome then optV o (n ++ "_constraint_ref") else none } := by
    unfold readState
    rw [opt_ok h h1, opt_ok h h2, pair_ok h h3, hu, opt_ok h h5, opt_ok h h6, flag_ok h h7, opt_ok h h8]
    cases (optV o (n ++ "_final")) <;> rfl
  unfold state
  rw [hr]
  unfold addState finalCon
  cases hf : optV o (n ++ "_final") <;>
    simp [bind, Except.bind, pure, Except.pure, stateCall]

/-- The options of a control as read. -/
def ctrlOf (o : Opts) (n : String) : CtrlOpts :=
  { initial := optV o (n ++ "_initial"), final := optV o (n ++ "_final"), lower := (pairV o (n ++ "_bounds")).1,
    upper := (pairV o (n ++ "_bounds")).2.1, units := (pairV o (n ++ "_bounds")).2.2, ref := numV o (n ++ "_ref"),
    ref0 := optV o (n ++ "_ref0"), polynomialOrder := intV o (n ++ "_polynomial_order"),
    optimize := flagV o (n ++ "_optimize") }

theorem control_ok (h : WellTyped ds o) {n : String} (hn : hasControl (kinds ds) n = true) (p : Phase) :
    control o n p = .ok (addControl p (ctrlOf o n) n none none true) := by
  simp only [hasControl, Bool.and_eq_true] at hn
  obtain ⟨⟨⟨⟨⟨⟨h1, h2⟩, h3⟩, h4⟩, h5⟩, h6⟩, h7⟩ := hn
  obtain ⟨u, hu⟩ := num_ok h h4
  unfold control readControl
  rw [opt_ok h h1, opt_ok h h2, pair_ok h h3, hu, opt_ok h h5, int_ok h h6, flag_ok h h7]
  rfl

theorem transcription_ok (h : WellTyped ds o) (h1 : (kinds ds).contains ("num_segments", .int) = true)
    (h2 : (kinds ds).contains ("order", .int) = true) :
    transcription o = .ok (some (intV o "num_segments", intV o "order")) := by
  unfold transcription
  rw [int_ok h h1, int_ok h h2]
  rfl

/-! ### The phases built -/

/-- Mass and distance. -/
def massDist (o : Opts) (rm rd : String) : List StateCall := [stateCall o "mass" rm, stateCall o "distance" rd]

/-- **Property.**  An acceleration is built from any options that were accepted: velocity, mass and distance are its
states, the equivalent airspeed at the end is the one asked for and the altitude is a constant. -/
theorem accel_spec (h : WellTyped accelOptions o) : ∃ b, build .accel o = .ok b ∧
    b.phase.states = stateCall o "velocity" "velocity_rate" ::
      massDist o "fuel_flow_rate_negative_total" "distance_rate" ∧
    b.phase.controls = [] ∧ b.params = [("altitude", numV o "alt", false)] ∧
    b.phase.cons = finalCon o "velocity" ++ finalCon o "mass" ++ finalCon o "distance" ++
      [{ target := "EAS", loc := some .final, equals := some (numV o "EAS_constraint_eq"), units := some "kn",
         ref := some (numV o "EAS_constraint_eq") }] := by
  obtain ⟨u, hu⟩ := num_ok h (k := "EAS_constraint_eq") (by decide +kernel)
  obtain ⟨w, hw⟩ := num_ok h (k := "alt") (by decide +kernel)
  show ∃ b, accel o = .ok b ∧ _
  unfold accel
  rw [transcription_ok h (by decide +kernel) (by decide +kernel), hu, hw]
  simp only [bind, Except.bind, pure, Except.pure]
  rw [state_ok h (by decide +kernel)]
  simp only
  rw [state_ok h (by decide +kernel)]
  simp only
  rw [state_ok h (by decide +kernel)]
  exact ⟨_, rfl, rfl, rfl, rfl, rfl⟩

/-- **Property.**  A flight phase is built from any options that were accepted: altitude, mass and distance are its
states; the climb rate at the end is bounded from below exactly if a rate is asked for; the airspeed is a parameter exactly
if it is the given speed. -/
theorem flight_spec (h : WellTyped flightOptions o) : ∃ b, build .flight o = .ok b ∧
    b.phase.states = stateCall o "altitude" "altitude_rate" ::
      massDist o "fuel_flow_rate_negative_total" "distance_rate" ∧
    b.phase.controls = [] ∧
    b.params = (if o "input_speed_type" = some (.speed .eas) then [("EAS", numV o "EAS_target", false)] else []) ∧
    b.phase.cons = finalCon o "altitude" ++ finalCon o "mass" ++ finalCon o "distance" ++
      (match optV o "required_available_climb_rate" with
        | some r => [{ target := "altitude_rate", loc := some .final, lower := some r, units := some "ft/min", ref := some 1 }]
        | none => []) := by
  obtain ⟨u, hu⟩ := num_ok h (k := "EAS_target") (by decide +kernel)
  obtain ⟨v, hv, e⟩ := h ("input_speed_type", .speed) (by decide +kernel)
  cases v <;> simp [Val.kind] at e
  rename_i s
  show ∃ b, flight o = .ok b ∧ _
  have hs : speed o "input_speed_type" = .ok s := by simp [speed, hv]
  unfold flight
  rw [transcription_ok h (by decide +kernel) (by decide +kernel), hu, hs, opt_ok h (by decide +kernel)]
  simp only [bind, Except.bind, pure, Except.pure]
  rw [state_ok h (by decide +kernel)]
  simp only
  rw [state_ok h (by decide +kernel)]
  simp only
  rw [state_ok h (by decide +kernel)]
  refine ⟨_, rfl, ?_, ?_, ?_, ?_⟩
  · cases optV o "required_available_climb_rate" <;> rfl
  · cases optV o "required_available_climb_rate" <;> rfl
  · rw [hv]
    cases s <;> simp
  · cases optV o "required_available_climb_rate"
    · simp
    · rfl

/-- **Property.**  A simple cruise is built from any options that were accepted: the mass is its only state, Mach number and
altitude are the constants asked for. -/
theorem simple_spec (h : WellTyped simpleOptions o) : ∃ b, build .simple o = .ok b ∧
    b.phase.states = [stateCall o "mass" "fuel_flow_rate_negative_total"] ∧ b.phase.cons = finalCon o "mass" ∧
    b.phase.controls = [] ∧
    b.params = [("altitude", numV o "alt_cruise", false), ("mach", rawV o "mach_cruise", false),
      ("initial_distance", 0, true)] ∧ "mass" ∈ b.outputs := by
  obtain ⟨u, hu⟩ := num_ok h (k := "alt_cruise") (by decide +kernel)
  show ∃ b, simple o = .ok b ∧ _
  unfold simple
  rw [transcription_ok h (by decide +kernel) (by decide +kernel), raw_ok h (by decide +kernel), hu]
  simp only [bind, Except.bind, pure, Except.pure]
  rw [state_ok h (by decide +kernel)]
  exact ⟨_, rfl, rfl, rfl, rfl, rfl, by dsimp only; decide⟩

/-- **Property.**  A Breguet cruise is built from any options that were accepted; it has no states and no transcription. -/
theorem breguet_spec (h : WellTyped breguetOptions o) : ∃ b, build .breguet o = .ok b ∧
    b.phase.states = [] ∧ b.transcription = none ∧ b.phase.controls = [] ∧
    b.params = [("altitude", numV o "alt_cruise", false), ("mach", rawV o "mach_cruise", false),
      ("initial_distance", 0, false), ("initial_time", 0, false)] ∧ "mass" ∈ b.outputs := by
  obtain ⟨u, hu⟩ := num_ok h (k := "alt_cruise") (by decide +kernel)
  show ∃ b, breguet o = .ok b ∧ _
  unfold breguet
  rw [raw_ok h (by decide +kernel), hu]
  exact ⟨_, rfl, rfl, rfl, rfl, rfl, by dsimp only; decide⟩

/-- **Property.**  A ground roll of the solved missions is built from any options that were accepted; it is integrated over
the velocity within the bounds of the duration. -/
theorem groundroll_spec (h : WellTyped groundrollOptions o) : ∃ b, build .groundroll o = .ok b ∧
    b.phase.states = massDist o "dmass_dv" "over_a" ∧ b.over = "velocity" ∧ b.timeState = some "dt_dv" ∧
    b.timeBounds = some ((pairV o "time_duration_bounds").1, (pairV o "time_duration_bounds").2.1) ∧
    b.phase.controls = [] ∧ b.phase.cons = finalCon o "mass" ++ finalCon o "distance" ∧ "mach" ∈ b.outputs := by
  obtain ⟨u, hu⟩ := num_ok h (k := "time_duration_ref") (by decide +kernel)
  show ∃ b, groundroll o = .ok b ∧ _
  unfold groundroll
  rw [transcription_ok h (by decide +kernel) (by decide +kernel), pair_ok h (by decide +kernel), hu]
  simp only [bind, Except.bind, pure, Except.pure]
  rw [state_ok h (by decide +kernel)]
  simp only
  rw [state_ok h (by decide +kernel)]
  exact ⟨_, rfl, rfl, rfl, rfl, rfl, rfl, rfl, by dsimp only; decide⟩

/-- **Property.**  A takeoff phase is built from any options that were accepted.  On the ground it has velocity, mass and
distance as states, in rotation the angle of attack too, in the air also flight path angle and altitude, with the angle of attack
as control; the wheels carry no load at the end of the rotation; load factor and pitch are bounded in the air only, and only
there gear and flaps are retracted early. -/
theorem takeoff_spec (h : WellTyped takeoffOptions o) : ∃ b, build .takeoff o = .ok b ∧
    b.phase.states =
      (if flagV o "rotation" then [stateCall o "angle_of_attack" "angle_of_attack_rate"] else []) ++
      (if flagV o "ground_roll" = false ∧ flagV o "rotation" = false then
        [stateCall o "flight_path_angle" "flight_path_angle_rate", stateCall o "altitude" "altitude_rate"] else []) ++
      stateCall o "velocity" "velocity_rate" :: massDist o "fuel_flow_rate_negative_total" "distance_rate" ∧
    b.phase.controls.map (·.name) =
      (if flagV o "ground_roll" = false ∧ flagV o "rotation" = false then ["angle_of_attack"] else []) ∧
    (({ target := "normal_force", loc := some .final, equals := some 0, units := some "lbf",
        ref := some (numV o "normal_ref") } : Con) ∈ b.phase.cons ↔ flagV o "rotation" = true) ∧
    (({ target := "load_factor", loc := none, lower := some 0, upper := some (11 / 10) } : Con) ∈ b.phase.cons ↔
      flagV o "ground_roll" = false ∧ flagV o "rotation" = false) ∧
    (flagV o "ground_roll" = false → flagV o "rotation" = false →
      ({ target := "fuselage_pitch", aliasName := some "theta", loc := none, lower := (pairV o "pitch_constraint_bounds").1,
         upper := (pairV o "pitch_constraint_bounds").2.1, units := some "deg",
         ref := some (numV o "pitch_constraint_ref") } : Con) ∈ b.phase.cons) ∧
    b.params = (if flagV o "ground_roll" = false ∧ flagV o "rotation" = false then
      [("t_init_gear", 153 / 4, false), ("t_init_flaps", 4821 / 100, false)]
      else [("t_init_gear", 100, false), ("t_init_flaps", 100, false)]) := by
  obtain ⟨u, hu⟩ := num_ok h (k := "pitch_constraint_ref") (by decide +kernel)
  obtain ⟨w, hw⟩ := num_ok h (k := "normal_ref") (by decide +kernel)
  obtain ⟨x, hx⟩ := num_ok h (k := "normal_ref0") (by decide +kernel)
  have hm := fun r p => state_ok h (n := "mass") (by decide +kernel) r p
  have hd := fun r p => state_ok h (n := "distance") (by decide +kernel) r p
  have hv := fun r p => state_ok h (n := "velocity") (by decide +kernel) r p
  have ha := fun r p => state_ok h (n := "angle_of_attack") (by decide +kernel) r p
  have hf := fun r p => state_ok h (n := "flight_path_angle") (by decide +kernel) r p
  have hl := fun r p => state_ok h (n := "altitude") (by decide +kernel) r p
  have hc := fun p => control_ok h (n := "angle_of_attack") (by decide +kernel) p
  have nf : ∀ n, (∀ c ∈ finalCon o n, c.target = n ∧ c.loc = some .final) := fun n c hc => by
    unfold finalCon at hc
    split at hc
    · simp at hc
    · simp only [List.mem_singleton] at hc
      subst hc
      exact ⟨rfl, rfl⟩
  show ∃ b, takeoff o = .ok b ∧ _
  unfold takeoff
  rw [transcription_ok h (by decide +kernel) (by decide +kernel), flag_ok h (by decide +kernel), flag_ok h (by decide +kernel),
    pair_ok h (by decide +kernel), hu]
  have e : ∀ {t n : String} {c : Con}, c.target = t → t ≠ n → c ∉ finalCon o n := fun h1 h2 h3 =>
    h2 (h1.symm.trans (nf _ _ h3).1)
  have cc : ∀ (q : Phase) (c : Con), c.target ≠ "angle_of_attack" →
      (c ∈ (addControl q (ctrlOf o "angle_of_attack") "angle_of_attack" none none true).cons ↔ c ∈ q.cons) := by
    intro q c hc
    unfold addControl
    simp only [Bool.not_true, Bool.false_eq_true, if_false, List.mem_append]
    constructor
    · rintro ((h1 | h1) | h1)
      · exact h1
      · split at h1
        · simp only [List.mem_singleton] at h1; subst h1; exact absurd rfl hc
        · simp at h1
      · split at h1
        · simp only [List.mem_singleton] at h1; subst h1; exact absurd rfl hc
        · simp at h1
    · exact fun h => .inl (.inl h)
  have cn : ∀ (q : Phase), (addControl q (ctrlOf o "angle_of_attack") "angle_of_attack" none none true).states = q.states ∧
      (addControl q (ctrlOf o "angle_of_attack") "angle_of_attack" none none true).controls.map (·.name) =
        q.controls.map (·.name) ++ ["angle_of_attack"] := by
    intro q
    unfold addControl
    simp
  simp only [bind, Except.bind, pure, Except.pure]
  cases hg : flagV o "ground_roll" <;> cases hr : flagV o "rotation" <;>
    simp only [Bool.or_true, Bool.or_false, Bool.not_true, Bool.not_false, if_true, if_false, Bool.false_eq_true,
      hm, hd, hv, ha, hf, hl, hc, hw, hx]
  · refine ⟨_, rfl, ?_, ?_, ?_, ?_, ?_, ?_⟩
    · simp [addCon, cn, massDist]
    · simp [addCon, cn]
    · simp only [addCon, List.mem_append, List.mem_singleton, iff_false]
      rintro ((h1 | h1) | h1)
      · rw [cc _ _ (by dsimp only; decide)] at h1
        simp only [List.mem_append] at h1
        rcases h1 with ((((h1 | h1) | h1) | h1) | h1) | h1 <;> first | exact e rfl (by dsimp only; decide) h1 | cases h1
      · simp at h1
      · simp at h1
    · simp [addCon]
    · simp [addCon]
    · simp
  · refine ⟨_, rfl, ?_, ?_, ?_, ?_, ?_, ?_⟩
    · simp [addCon, massDist]
    · simp [addCon]
    · simp [addCon]
    · simp only [addCon, List.mem_append, List.mem_singleton, reduceCtorEq, iff_false, and_false]
      rintro (h1 | h1)
      · rcases h1 with (((h1 | h1) | h1) | h1) | h1 <;> first | exact e rfl (by dsimp only; decide) h1 | cases h1
      · simp at h1
    · simp
    · simp
  · refine ⟨_, rfl, ?_, ?_, ?_, ?_, ?_, ?_⟩
    · simp [massDist]
    · simp
    · simp only [List.mem_append, iff_false]
      rintro h1
      rcases h1 with ((h1 | h1) | h1) | h1 <;> first | exact e rfl (by dsimp only; decide) h1 | cases h1
    · simp only [List.mem_append, reduceCtorEq, iff_false, false_and]
      rintro h1
      rcases h1 with ((h1 | h1) | h1) | h1 <;> first | exact e rfl (by dsimp only; decide) h1 | cases h1
    · simp
    · simp
  · refine ⟨_, rfl, ?_, ?_, ?_, ?_, ?_, ?_⟩
    · simp [addCon, massDist]
    · simp [addCon]
    · simp [addCon]
    · simp only [addCon, List.mem_append, List.mem_singleton, reduceCtorEq, iff_false, and_false]
      rintro (h1 | h1)
      · rcases h1 with (((h1 | h1) | h1) | h1) | h1 <;> first | exact e rfl (by dsimp only; decide) h1 | cases h1
      · simp at h1
    · simp
    · simp

/-- The default options. -/
def defaults (ds : Decls) : Opts := fun k => ds.lookup k

/-- The defaults of every builder are options that it accepts. -/
theorem defaults_wellTyped (b : Builder) : WellTyped (options b) (defaults (options b)) := by
  have : ∀ k ∈ kinds (options b), (defaults (options b) k.1).map Val.kind = some k.2 := by
    cases b <;> decide +kernel
  intro k hk
  have := this k hk
  cases hv : defaults (options b) k.1 with
  | none => rw [hv] at this; cases this
  | some v => rw [hv] at this; exact ⟨v, rfl, Option.some.inj this⟩

/-- The start of a state is held exactly if a start was asked for. -/
example : ∃ b, build .takeoff (fun k => if k = "altitude_initial" then some (.opt (some 0) "ft")
    else defaults takeoffOptions k) = .ok b ∧
    b.phase.states.map (fun s => (s.name, s.fixInitial)) =
      [("flight_path_angle", false), ("altitude", true), ("velocity", false), ("mass", false), ("distance", false)] :=
  ⟨_, rfl, by decide +kernel⟩

/-! ### Linked variables -/

/-- A variable that a phase offers: a state, a control, a parameter, an output or the time. -/
def Offers (b : Built) (x : String) : Prop :=
  x ∈ b.phase.states.map (·.name) ∨ x ∈ b.phase.controls.map (·.name) ∨ x ∈ b.params.map (·.1) ∨ x ∈ b.outputs ∨ x = "time"

/-- **Property.**  Every variable that a builder asks to be linked is one its phase offers. -/
theorem links_offered (b : Builder) (h : WellTyped (options b) o) : ∃ r, build b o = .ok r ∧
    ∀ x ∈ links (flagV o "ground_roll") (flagV o "rotation") b, Offers r x := by
  cases b with
  | takeoff =>
    obtain ⟨r, hr, hs, hc, -⟩ := takeoff_spec h
    refine ⟨r, hr, fun x hx => ?_⟩
    unfold Offers
    rw [hs, hc]
    revert hx
    cases flagV o "ground_roll" <;> cases flagV o "rotation" <;> simp [links, massDist, stateCall] <;> tauto
  | accel =>
    obtain ⟨r, hr, hs, -⟩ := accel_spec h
    refine ⟨r, hr, fun x hx => ?_⟩
    unfold Offers
    rw [hs]
    simp [links] at hx
    simp [massDist, stateCall]
    tauto
  | flight =>
    obtain ⟨r, hr, hs, -⟩ := flight_spec h
    refine ⟨r, hr, fun x hx => ?_⟩
    unfold Offers
    rw [hs]
    simp [links] at hx
    simp [massDist, stateCall]
    tauto
  | simple =>
    obtain ⟨r, hr, hs, -, -, hp, -⟩ := simple_spec h
    refine ⟨r, hr, fun x hx => ?_⟩
    unfold Offers
    rw [hs, hp]
    simp [links] at hx
    simp [stateCall]
    tauto
  | breguet =>
    obtain ⟨r, hr, hs, -, -, hp, hm⟩ := breguet_spec h
    refine ⟨r, hr, fun x hx => ?_⟩
    unfold Offers
    rw [hs, hp]
    simp [links] at hx
    rcases hx with rfl | rfl | rfl | rfl | rfl
    all_goals first | exact .inr (.inr (.inr (.inl hm))) | simp
  | groundroll =>
    obtain ⟨r, hr, hs, -, -, -, -, -, hm⟩ := groundroll_spec h
    refine ⟨r, hr, fun x hx => ?_⟩
    unfold Offers
    rw [hs]
    simp [links] at hx
    rcases hx with rfl | rfl | rfl | rfl
    all_goals first | exact .inr (.inr (.inr (.inl hm))) | simp [massDist, stateCall]

/-- The options as they are read when phases are linked. -/
def linkOpts (o : Opts) : LinkPhases.Opts :=
  ⟨fun k => match o k with | some (.flag b) => some b | _ => none,
   fun k => match o k with | some (.num v u) => (some v, some u) | some (.opt v u) => (v, some u) | _ => (none, none)⟩

/-- Only declared options are there. -/
def Declared (ds : Decls) (o : Opts) : Prop := ∀ k, (ds.map (·.1)).contains k = false → o k = none

/-- `p` is a phase of the builder `b` with the options `o`. -/
def IsPhase (p : LinkPhases.Phase) (b : Builder) (o : Opts) : Prop :=
  Declared (options b) o ∧ p.opts = linkOpts o ∧ p.vars = links (flagV o "ground_roll") (flagV o "rotation") b

/-- Whether the builder makes a cruise. -/
def cruises : Builder → Bool
  | .simple | .breguet => true
  | _ => false

theorem carries {p : LinkPhases.Phase} {b : Builder} {o : Opts} (h : IsPhase p b o) {x : String}
    (hx : x = "time" ∨ x = "distance" ∨ x = "mass") :
    (x ∈ p.vars ∨ "initial_" ++ x ∈ p.vars) ∧ (cruises b = false → x ∈ p.vars ∧ "initial_" ++ x ∉ p.vars) ∧
      LinkPhases.optimize p x = none := by
  obtain ⟨h1, h2, h3⟩ := h
  refine ⟨?_, ?_, ?_⟩
  · rw [h3]
    rcases hx with rfl | rfl | rfl <;> cases b <;> cases flagV o "ground_roll" <;> cases flagV o "rotation" <;> decide
  · rw [h3]
    rcases hx with rfl | rfl | rfl <;> cases b <;> cases flagV o "ground_roll" <;> cases flagV o "rotation" <;> decide
  · have : o (x ++ "_optimize") = none := by
      apply h1
      rcases hx with rfl | rfl | rfl <;> cases b <;> decide +kernel
    unfold LinkPhases.optimize
    rw [h2]
    simp [linkOpts, this]

/-- **Property.**  Time, distance and mass are continuous from a phase of a two degree of freedom mission to the next, for all
options, unless both are cruises. -/
theorem chain_continuous {cd : Bool} {p1 p2 : LinkPhases.Phase} {b1 b2 : Builder} {o1 o2 : Opts}
    (h1 : IsPhase p1 b1 o1) (h2 : IsPhase p2 b2 o2) (hb : cruises b1 = false ∨ cruises b2 = false)
    {st st' : Option (Option Bool)} {a : List LinkPhases.Act} (h : LinkPhases.linkPair cd p1 p2 st = .ok (a, st'))
    {t : LinkPhases.Values} (hm : ∀ x ∈ a, LinkPhases.Met t x) (hs : LinkPhases.Starts t p2) {x : String}
    (hx : x = "time" ∨ x = "distance" ∨ x = "mass") (hp1 : LinkPhases.Pinned t p1 x) (hp2 : LinkPhases.Pinned t p2 x)
    (hpin : ∀ q r, LinkPhases.pinFinal p1 x = some q → LinkPhases.pinInitial p2 x = some r → q ≠ 0 → r ≠ 0 → q = r) :
    t.stop p1.name x = t.start p2.name x := by
  obtain ⟨c1, d1, e1⟩ := carries h1 hx
  obtain ⟨c2, d2, e2⟩ := carries h2 hx
  refine LinkPhases.linkPair_continuous h hm hs ?_ hp1 hp2 c1 c2 ?_ ?_ hpin
  · rcases hx with rfl | rfl | rfl <;> decide
  · rintro ⟨g1, g2⟩
    rcases hb with hb | hb
    · exact g1 (d1 hb).1
    · exact (d2 hb).2 g2
  · rw [e1]
    simp

/-- A variable that is not common to two phases, nor carried by a parameter of its start, may jump at their joint. -/
theorem unlinked_jump {cd : Bool} {p1 p2 : LinkPhases.Phase} {x : String} (hx : LinkPhases.isInitial x = false)
    (h : ¬(x ∈ p1.vars ∧ x ∈ p2.vars)) (h1 : "initial_" ++ x ∉ p1.vars)
    {st st' : Option (Option Bool)} {a : List LinkPhases.Act} (ha : LinkPhases.linkPair cd p1 p2 st = .ok (a, st')) :
    ∃ t : LinkPhases.Values, (∀ y ∈ a, LinkPhases.Met t y) ∧ t.stop p1.name x ≠ t.start p2.name x := by
  refine ⟨⟨fun p v => if p = p2.name ∧ v = x then 1 else 0, fun _ _ => 0⟩, fun y hy => ?_, by simp⟩
  rcases (LinkPhases.linkPair_mem ha y).1 hy with ⟨v, v1, v2, hv⟩ | ⟨v, v2, hi, b, hb, hv⟩ | ⟨v, v1, hi, b, hb, hv⟩
  · rcases LinkPhases.commonActs_mem hv with ⟨w, rfl⟩ | ⟨c, k, rfl, -⟩
    · trivial
    · have : v ≠ x := fun e => h (e ▸ ⟨v1, v2⟩)
      simp [LinkPhases.Met, this]
  · rcases LinkPhases.downActs_mem hb hv with ⟨w, rfl⟩ | ⟨-, k, rfl, -⟩
    · trivial
    · have : v ≠ x := fun e => by rw [e, hx] at hi; cases hi
      simp [LinkPhases.Met, this]
  · rcases LinkPhases.upActs_mem hb hv with ⟨w, rfl⟩ | ⟨-, -, k, rfl, -⟩
    · trivial
    · have : LinkPhases.stem v ≠ x := fun e => h1 (by rw [← e, LinkPhases.append_stem hi]; exact v1)
      simp [LinkPhases.Met, this]

/-- **Violated.**  The flight path angle is a state of the phases in the air, but no builder links it: it may jump
from one phase of the climb out to the next, whatever the options. -/
theorem flight_path_angle_continuous_violated {cd : Bool} {p1 p2 : LinkPhases.Phase} {b1 b2 : Builder} {o1 o2 : Opts}
    (h1 : IsPhase p1 b1 o1) (_h2 : IsPhase p2 b2 o2) {st st' : Option (Option Bool)} {a : List LinkPhases.Act}
    (h : LinkPhases.linkPair cd p1 p2 st = .ok (a, st')) :
    ∃ t : LinkPhases.Values, (∀ y ∈ a, LinkPhases.Met t y) ∧
      t.stop p1.name "flight_path_angle" ≠ t.start p2.name "flight_path_angle" := by
  have : "flight_path_angle" ∉ p1.vars ∧ "initial_" ++ "flight_path_angle" ∉ p1.vars := by
    rw [h1.2.2]
    cases b1 <;> cases flagV o1 "ground_roll" <;> cases flagV o1 "rotation" <;> decide
  exact unlinked_jump (by decide) (fun e => this.1 e.1) this.2 h

/-- **Violated.**  The altitude may jump into and out of an acceleration. -/
theorem accel_altitude_continuous_violated {cd : Bool} {p1 p2 : LinkPhases.Phase} {b1 b2 : Builder} {o1 o2 : Opts}
    (h1 : IsPhase p1 b1 o1) (h2 : IsPhase p2 b2 o2) (hb : b1 = .accel ∨ b2 = .accel)
    {st st' : Option (Option Bool)} {a : List LinkPhases.Act} (h : LinkPhases.linkPair cd p1 p2 st = .ok (a, st')) :
    ∃ t : LinkPhases.Values, (∀ y ∈ a, LinkPhases.Met t y) ∧ t.stop p1.name "altitude" ≠ t.start p2.name "altitude" := by
  have h0 : "initial_" ++ "altitude" ∉ p1.vars := by
    rw [h1.2.2]
    cases b1 <;> cases flagV o1 "ground_roll" <;> cases flagV o1 "rotation" <;> decide
  refine unlinked_jump (by decide) (fun e => ?_) h0 h
  rcases hb with rfl | rfl
  · rw [h1.2.2] at e
    simp [links] at e
  · rw [h2.2.2] at e
    simp [links] at e

/-- **Property.**  The altitude is continuous between two phases that both link it. -/
theorem altitude_continuous_partial {cd : Bool} {p1 p2 : LinkPhases.Phase} {b1 b2 : Builder} {o1 o2 : Opts}
    (h1 : IsPhase p1 b1 o1) (h2 : IsPhase p2 b2 o2)
    (hb1 : b1 = .flight ∨ cruises b1 = true ∨ (b1 = .takeoff ∧ flagV o1 "ground_roll" = false ∧ flagV o1 "rotation" = false))
    (hb2 : b2 = .flight ∨ cruises b2 = true ∨ (b2 = .takeoff ∧ flagV o2 "ground_roll" = false ∧ flagV o2 "rotation" = false))
    {st st' : Option (Option Bool)} {a : List LinkPhases.Act} (h : LinkPhases.linkPair cd p1 p2 st = .ok (a, st'))
    {t : LinkPhases.Values} (hm : ∀ x ∈ a, LinkPhases.Met t x) (hs : LinkPhases.Starts t p2)
    (hp1 : LinkPhases.Pinned t p1 "altitude") (hp2 : LinkPhases.Pinned t p2 "altitude")
    (hpin : ∀ q r, LinkPhases.pinFinal p1 "altitude" = some q → LinkPhases.pinInitial p2 "altitude" = some r →
      q ≠ 0 → r ≠ 0 → q = r) :
    t.stop p1.name "altitude" = t.start p2.name "altitude" := by
  have key : ∀ {p b o}, IsPhase p b o →
      (b = .flight ∨ cruises b = true ∨ (b = .takeoff ∧ flagV o "ground_roll" = false ∧ flagV o "rotation" = false)) →
      "altitude" ∈ p.vars := by
    intro p b o h hb
    rw [h.2.2]
    rcases hb with rfl | hb | ⟨rfl, e1, e2⟩
    · simp [links]
    · cases b <;> simp [cruises] at hb <;> simp [links]
    · simp [links, e1, e2]
  have e1 : LinkPhases.optimize p1 "altitude" = none := by
    have : o1 ("altitude" ++ "_optimize") = none := by
      apply h1.1
      cases b1 <;> decide +kernel
    unfold LinkPhases.optimize
    rw [h1.2.1]
    simp only [linkOpts, this]
  refine LinkPhases.linkPair_continuous h hm hs (by decide) hp1 hp2 (.inl (key h1 hb1)) (.inl (key h2 hb2))
    (fun e => e.1 (key h1 hb1)) ?_ hpin
  rw [e1]
  simp

/-- A phase of a builder with its default options. -/
def defaultPhase (n : String) (b : Builder) : LinkPhases.Phase :=
  { name := n, vars := links false false b, opts := linkOpts (defaults (options b)), integrated := "time", states := [] }

theorem lookup_none {l : Decls} {k : String} (h : (l.map (·.1)).contains k = false) : l.lookup k = none := by
  induction l with
  | nil => rfl
  | cons d ds ih =>
    obtain ⟨a, v⟩ := d
    simp only [List.map_cons, List.contains_cons, Bool.or_eq_false_iff] at h
    rw [List.lookup_cons, h.1]
    exact ih h.2

/-- Phases with default options are phases of their builders, so the statements above speak of some. -/
theorem defaultPhase_isPhase (n : String) (b : Builder) : IsPhase (defaultPhase n b) b (defaults (options b)) := by
  refine ⟨fun k hk => lookup_none hk, rfl, ?_⟩
  have e1 : flagV (defaults (options b)) "ground_roll" = false := by cases b <;> decide +kernel
  have e2 : flagV (defaults (options b)) "rotation" = false := by cases b <;> decide +kernel
  rw [e1, e2]
  rfl

/-- Two of them are linked without error. -/
example : ∃ a st', LinkPhases.linkPair true (defaultPhase "a" .takeoff) (defaultPhase "b" .accel) none = .ok (a, st') :=
  ⟨_, _, rfl⟩

/-! ### Ignored defaults -/

/-- **Property.**  The defaults under the name `initial_time_direct_link`, given by four of the builders, are ignored: the option
is called `time_initial_direct_link`. -/
theorem initial_time_direct_link_ignored (u : String) (v : Val) (d : Decls) :
    timeOptions u (("initial_time_direct_link", v) :: d) = timeOptions u d := by
  have key : ∀ k w, ("initial_time_direct_link" == k) = false →
      dflt (("initial_time_direct_link", v) :: d) k w = dflt d k w := by
    intro k w h
    unfold dflt
    rw [List.lookup_cons, show (k == "initial_time_direct_link") = false from by
      rw [BEq.comm]; exact h]
  unfold timeOptions
  rw [key _ _ (by decide), key _ _ (by decide), key _ _ (by decide), key _ _ (by decide), key _ _ (by decide),
    key _ _ (by decide), key _ _ (by decide)]

end Verif.TwoDofPhases
