import Verif.Model.SolvedPhases
import Verif.Props.TwoDofPhases
import Verif.Props.FlightPhase

/-!
# Properties of the phases of the energy method and of the solved method
-/

namespace Verif.SolvedPhases

open TwoDofPhases
open FlightPhase (Phase Err Enforcement Allocation UserCon Subsystem StateOpts CtrlOpts subsystemCons userCons)

variable {o : Opts}

/-- The options of a state, each from its own option. -/
def stateOf (o : Opts) (n : String) : StateOpts :=
  { initial := optV o (n ++ "_initial"), final := optV o (n ++ "_final"), lower := (pairV o (n ++ "_bounds")).1,
    upper := (pairV o (n ++ "_bounds")).2.1, units := (pairV o (n ++ "_bounds")).2.2, ref := numV o (n ++ "_ref"),
    ref0 := optV o (n ++ "_ref0"), defectRef := optV o (n ++ "_defect_ref"), solveSegments := flagV o (n ++ "_solve_segments"),
    constraintRef := if (optV o (n ++ "_final")).isSome then optV o (n ++ "_constraint_ref") else none }

theorem readState_ok {ds : Decls} (h : WellTyped ds o) {n : String} (hn : hasState (kinds ds) n = true) :
    readState o n = .ok (stateOf o n) := by
  simp only [hasState, Bool.and_eq_true] at hn
  obtain ⟨⟨⟨⟨⟨⟨⟨h1, h2⟩, h3⟩, h4⟩, h5⟩, h6⟩, h7⟩, h8⟩ := hn
  obtain ⟨u, hu⟩ := num_ok h h4
  unfold readState stateOf
  rw [opt_ok h h1, opt_ok h h2, pair_ok h h3, hu, opt_ok h h5, opt_ok h h6, flag_ok h h7, opt_ok h h8]
  cases (optV o (n ++ "_final")) <;> rfl

theorem readControl_ok {ds : Decls} (h : WellTyped ds o) {n : String} (hn : hasControl (kinds ds) n = true) :
    readControl o n = .ok (ctrlOf o n) := by
  simp only [hasControl, Bool.and_eq_true] at hn
  obtain ⟨⟨⟨⟨⟨⟨h1, h2⟩, h3⟩, h4⟩, h5⟩, h6⟩, h7⟩ := hn
  obtain ⟨u, hu⟩ := num_ok h h4
  unfold readControl
  rw [opt_ok h h1, opt_ok h h2, pair_ok h h3, hu, opt_ok h h5, int_ok h h6, flag_ok h h7]
  rfl

/-- The options of the phase, each from its own option. -/
def optsOf (energy : Bool) (o : Opts) (c : Choice) : FlightPhase.Opts :=
  { mass := stateOf o "mass", distance := if energy then stateOf o "distance" else unread, mach := ctrlOf o "mach",
    altitude := ctrlOf o "altitude", throttle := if c.enforcement = .control then ctrlOf o "throttle" else unreadControl,
    enforcement := c.enforcement, allocation := c.allocation, noClimb := flagV o "no_climb", noDescent := flagV o "no_descent",
    groundRoll := flagV o "ground_roll", climbRate := optV o "required_available_climb_rate", constraints := c.constraints }

theorem read_energy (h : WellTyped energyOptions o) (c : Choice) : read true o c = .ok (optsOf true o c) := by
  unfold read optsOf
  rw [flag_ok h (by decide +kernel), flag_ok h (by decide +kernel), flag_ok h (by decide +kernel), readState_ok h (by decide +kernel),
    readState_ok h (by decide +kernel), readControl_ok h (by decide +kernel), readControl_ok h (by decide +kernel),
    opt_ok h (by decide +kernel), readControl_ok h (n := "throttle") (by decide +kernel)]
  by_cases hc : c.enforcement = .control
  · simp only [hc, if_true]; rfl
  · simp only [hc, if_false]; rfl

theorem read_solved (h : WellTyped solvedOptions o) (c : Choice) (hc : c.enforcement ≠ .control) :
    read false o c = .ok (optsOf false o c) := by
  unfold read optsOf
  rw [flag_ok h (by decide +kernel), flag_ok h (by decide +kernel), flag_ok h (by decide +kernel), readState_ok h (by decide +kernel),
    readControl_ok h (by decide +kernel), readControl_ok h (by decide +kernel), opt_ok h (by decide +kernel)]
  simp only [hc, if_false]; rfl

/-- The number of segments and the number of nodes or the order. -/
def nodesOf (n k : ℕ) : Scheme → Option (ℕ × ℕ)
  | .collocation => some (n, k)
  | .picard => some (1, k * n)
  | .other => none

theorem transcription_spec {ds : Decls} (h : WellTyped ds o) (h1 : (kinds ds).contains ("num_segments", .int) = true)
    (h2 : (kinds ds).contains ("order", .int) = true) {n k : ℕ} (hn : intV o "num_segments" = some n) (hk : intV o "order" = some k)
    (s : Scheme) : transcription o s = match nodesOf n k s with | some r => .ok r | none => .error .value := by
  unfold transcription
  rw [int_ok h h1, int_ok h h2, hn, hk]
  cases s <;> rfl

/-- **Phases of the energy method** are built from all options that were accepted, unless a constraint is malformed or the
transcription is unknown, and every argument comes from its own option. -/
theorem energy_spec (h : WellTyped energyOptions o) {n k : ℕ} (hn : intV o "num_segments" = some n) (hk : intV o "order" = some k)
    (engines : ℕ) (subs : List Subsystem) (c : Choice) :
    ((∃ r, energy engines subs o c = .ok r) ↔ c.scheme ≠ .other ∧
      (∀ s ∈ subs, ∃ l, subsystemCons s.constraints = .ok l) ∧ ∃ l, userCons c.constraints = .ok l) ∧
    ∀ p m, energy engines subs o c = .ok (p, m) →
      FlightPhase.build true engines subs (optsOf true o c) = .ok p ∧ nodesOf n k c.scheme = some m := by
  have ht := transcription_spec h (by decide +kernel) (by decide +kernel) hn hk c.scheme
  have hb := FlightPhase.build_ok_iff true engines subs (optsOf true o c)
  have hcons : (optsOf true o c).constraints = c.constraints := rfl
  rw [hcons] at hb
  unfold energy
  rw [read_energy h c, ht]
  cases hs : c.scheme with
  | other => exact ⟨by simp [nodesOf, bind, Except.bind], fun p m e => by simp [nodesOf, bind, Except.bind] at e⟩
  | _ =>
    rw [← hb]
    cases hp : FlightPhase.build true engines subs (optsOf true o c) with
    | error e => exact ⟨by simp [nodesOf, bind, Except.bind, hp], fun p m e => by simp [nodesOf, bind, Except.bind, hp] at e⟩
    | ok q =>
      refine ⟨by simp [nodesOf, bind, Except.bind, pure, Except.pure, hp], fun p m e => ?_⟩
      simp [nodesOf, bind, Except.bind, pure, Except.pure, hp] at e
      simp [nodesOf, e]

/-- The options of the distance, over which a solved phase is integrated. -/
def timeOf (conv : String → ℚ → ℚ) (o : Opts) (u v : String) : TimeCall :=
  if (optV o "time_initial").isSome then
    if (optV o "time_duration").isSome then ⟨true, true, none, none, none, none, true⟩
    else ⟨true, false, none, none, some (convPair conv (pairV o "time_duration_bounds")), some (conv v (numV o "time_duration_ref")), true⟩
  else
    if (optV o "time_duration").isSome then
      ⟨false, true, some (convPair conv (pairV o "time_initial_bounds")), some (conv u (numV o "time_initial_ref")), none, none, false⟩
    else ⟨false, false, some (convPair conv (pairV o "time_initial_bounds")), some (conv u (numV o "time_initial_ref")),
      some (convPair conv (pairV o "time_duration_bounds")), some (conv v (numV o "time_duration_ref")), false⟩

/-- The start and the length are held if they are given; otherwise they have bounds and references. -/
theorem timeCall_spec (h : WellTyped solvedOptions o) (conv : String → ℚ → ℚ) : ∃ u v,
    num o "time_initial_ref" = .ok (numV o "time_initial_ref", u) ∧ num o "time_duration_ref" = .ok (numV o "time_duration_ref", v) ∧
    timeCall conv o = .ok (timeOf conv o u v) := by
  obtain ⟨u, hu⟩ := num_ok h (k := "time_initial_ref") (by decide +kernel)
  obtain ⟨v, hv⟩ := num_ok h (k := "time_duration_ref") (by decide +kernel)
  refine ⟨u, v, hu, hv, ?_⟩
  unfold timeCall timeOf
  rw [opt_ok h (by decide +kernel), opt_ok h (by decide +kernel), pair_ok h (by decide +kernel), pair_ok h (by decide +kernel), hu, hv]
  cases optV o "time_initial" <;> cases optV o "time_duration" <;> rfl

/-- **Phases of the solved method** are built from all options that were accepted, unless a constraint is malformed.  They have the state
of mass and those of subsystems, the controls of Mach number and altitude, and that of the angle of attack exactly in a rotation. -/
theorem solved_spec (h : WellTyped solvedOptions o) {n k : ℕ} (hn : intV o "num_segments" = some n) (hk : intV o "order" = some k)
    (conv : String → ℚ → ℚ) (engines : ℕ) (subs : List Subsystem) (c : Choice) (hc : c.enforcement ≠ .control) :
    ((∃ r, solved conv engines subs o c = .ok r) ↔
      (∀ s ∈ subs, ∃ l, subsystemCons s.constraints = .ok l) ∧ ∃ l, userCons c.constraints = .ok l) ∧
    ∀ r, solved conv engines subs o c = .ok r → ∃ p, FlightPhase.build false engines subs (optsOf false o c) = .ok p ∧
      r.nodes = (n, k) ∧ timeCall conv o = .ok r.time ∧
      r.phase.states = p.states ∧ r.phase.timeseries = p.timeseries ++ (if flagV o "rotation" then ["angle_of_attack"] else []) ++ ["EAS", "drag", "lift", "thrust_req", "velocity"] ∧
      r.phase.controls.map (·.name) = p.controls.map (·.name) ++ (if flagV o "rotation" then ["angle_of_attack"] else []) ∧
      r.phase.cons = p.cons ++ (if flagV o "rotation" then FlightPhase.ctrlCons (ctrlOf o "angle_of_attack") "angle_of_attack" true else []) := by
  have ht := transcription_spec h (by decide +kernel) (by decide +kernel) hn hk .collocation
  have hb := FlightPhase.build_ok_iff false engines subs (optsOf false o c)
  have hcons : (optsOf false o c).constraints = c.constraints := rfl
  rw [hcons] at hb
  obtain ⟨u, v, -, -, htc⟩ := timeCall_spec h conv
  unfold solved
  rw [read_solved h c hc, ht, htc, flag_ok h (by decide +kernel), readControl_ok h (n := "angle_of_attack") (by decide +kernel), ← hb]
  cases hp : FlightPhase.build false engines subs (optsOf false o c) with
  | error e => exact ⟨by simp [nodesOf, bind, Except.bind, hp], fun r e => by simp [nodesOf, bind, Except.bind, hp] at e⟩
  | ok q =>
    have hcon := FlightPhase.addControl_cons q (ctrlOf o "angle_of_attack") "angle_of_attack" none none true
    obtain ⟨e1, -, e3, m, e4, e5, -⟩ := FlightPhase.addControl_states q (ctrlOf o "angle_of_attack") "angle_of_attack" none none true
    cases hr : flagV o "rotation" with
    | false =>
      refine ⟨by simp [nodesOf, bind, Except.bind, pure, Except.pure, hp], fun r e => ?_⟩
      simp [nodesOf, bind, Except.bind, pure, Except.pure, hp] at e
      subst e
      exact ⟨q, rfl, rfl, rfl, rfl, by simp, by simp, by simp⟩
    | true =>
      refine ⟨by simp [nodesOf, bind, Except.bind, pure, Except.pure, hp], fun r e => ?_⟩
      simp [nodesOf, bind, Except.bind, pure, Except.pure, hp] at e
      subst e
      exact ⟨q, rfl, rfl, rfl, e1, by simp [e3], by simp [e4, e5], by simp [hcon]⟩

/-- A phase of the energy method offers all variables that it asks to be linked. -/
theorem energy_links (h : WellTyped energyOptions o) {n k : ℕ} (hn : intV o "num_segments" = some n) (hk : intV o "order" = some k)
    {engines : ℕ} {subs : List Subsystem} {c : Choice} {p : Phase} {m : ℕ × ℕ} (e : energy engines subs o c = .ok (p, m)) :
    ∀ x ∈ energyLinks, x ∈ p.states.map (·.name) ∨ x ∈ p.controls.map (·.name) ∨ x = "time" := by
  obtain ⟨hb, -⟩ := (energy_spec h hn hk engines subs c).2 p m e
  obtain ⟨-, -, -, -, -, hs, hcn, -⟩ := FlightPhase.build_shape hb
  rw [hs, hcn]
  intro x hx
  simp only [energyLinks, List.mem_cons, List.not_mem_nil, or_false] at hx
  rcases hx with rfl | rfl | rfl | rfl | rfl <;> simp

theorem build_timeseries {es : Bool} {n : ℕ} {subs : List Subsystem} {f : FlightPhase.Opts} {p : Phase}
    (h : FlightPhase.build es n subs f = .ok p) : ∃ l, p.timeseries = l ++ FlightPhase.flightTimeseries es f := by
  simp only [FlightPhase.build] at h
  split at h
  · simp at h
  · split at h
    · simp at h
    · simp only [Except.ok.injEq] at h
      rw [← h]
      exact ⟨_, rfl⟩

/-- So does one of the solved method: distance is what it is integrated over, time and angle of attack are outputs. -/
theorem solved_links (h : WellTyped solvedOptions o) {n k : ℕ} (hn : intV o "num_segments" = some n) (hk : intV o "order" = some k)
    {conv : String → ℚ → ℚ} {engines : ℕ} {subs : List Subsystem} {c : Choice} (hc : c.enforcement ≠ .control) {r : Solved}
    (e : solved conv engines subs o c = .ok r) : ∀ x ∈ solvedLinks, x ∈ r.phase.states.map (·.name) ∨
      x ∈ r.phase.controls.map (·.name) ∨ x ∈ r.phase.timeseries ∨ x = "distance" := by
  obtain ⟨p, hb, -, -, hs, ht, hcn, -⟩ := (solved_spec h hn hk conv engines subs c hc).2 r e
  obtain ⟨-, -, -, -, -, hs', hcn', -⟩ := FlightPhase.build_shape hb
  obtain ⟨l, hl⟩ := build_timeseries hb
  rw [hs, ht, hcn, hs', hcn', hl]
  intro x hx
  simp only [solvedLinks, List.mem_cons, List.not_mem_nil, or_false] at hx
  rcases hx with rfl | rfl | rfl | rfl | rfl | rfl <;> simp [FlightPhase.flightTimeseries]

/-- Outputs of solved phases are asked for twice: drag, lift, required thrust and velocity. -/
theorem solved_timeseries_violated (h : WellTyped solvedOptions o) {n k : ℕ} (hn : intV o "num_segments" = some n)
    (hk : intV o "order" = some k) {conv : String → ℚ → ℚ} {engines : ℕ} {subs : List Subsystem} {c : Choice}
    (hc : c.enforcement ≠ .control) {r : Solved} (e : solved conv engines subs o c = .ok r) : ¬ r.phase.timeseries.Nodup := by
  obtain ⟨p, hb, -, -, -, ht, -⟩ := (solved_spec h hn hk conv engines subs c hc).2 r e
  obtain ⟨l, hl⟩ := build_timeseries hb
  rw [ht, hl]
  intro hnd
  rw [List.nodup_append] at hnd
  exact hnd.2.2 "velocity" (by simp [FlightPhase.flightTimeseries]) "velocity" (by simp) rfl

/-! ## Joints -/

/-- `p` is a phase of the energy method, or of the solved one, with the options `o`. -/
def IsPhase (energy : Bool) (p : LinkPhases.Phase) (o : Opts) : Prop :=
  Declared (if energy then energyOptions else solvedOptions) o ∧ p.opts = linkOpts o ∧ p.vars = if energy then energyLinks else solvedLinks

/-- **Joints**: time, distance and mass are continuous from one phase to the next, whatever the options; altitude and Mach number, and the
angle of attack of solved phases, unless neither phase optimises them. -/
theorem continuous_partial {cd b1 b2 : Bool} {p1 p2 : LinkPhases.Phase} {o1 o2 : Opts} (h1 : IsPhase b1 p1 o1) (h2 : IsPhase b2 p2 o2)
    {st st' : Option (Option Bool)} {a : List LinkPhases.Act} (h : LinkPhases.linkPair cd p1 p2 st = .ok (a, st'))
    {t : LinkPhases.Values} (hm : ∀ x ∈ a, LinkPhases.Met t x) (hs : LinkPhases.Starts t p2) {x : String}
    (hp1 : LinkPhases.Pinned t p1 x) (hp2 : LinkPhases.Pinned t p2 x)
    (hpin : ∀ q r, LinkPhases.pinFinal p1 x = some q → LinkPhases.pinInitial p2 x = some r → q ≠ 0 → r ≠ 0 → q = r)
    (hx : x = "time" ∨ x = "distance" ∨ x = "mass" ∨ (x = "angle_of_attack" ∧ b1 = false ∧ b2 = false ∨ x = "altitude" ∨ x = "mach") ∧
      (flagV o1 (x ++ "_optimize") = true ∨ flagV o2 (x ++ "_optimize") = true)) :
    t.stop p1.name x = t.start p2.name x := by
  have hv1 : x ∈ p1.vars := by
    rw [h1.2.2]
    rcases hx with rfl | rfl | rfl | ⟨⟨rfl, rfl, rfl⟩ | rfl | rfl, -⟩ <;> first | (cases b1 <;> decide) | decide
  have hv2 : x ∈ p2.vars := by
    rw [h2.2.2]
    rcases hx with rfl | rfl | rfl | ⟨⟨rfl, rfl, rfl⟩ | rfl | rfl, -⟩ <;> first | (cases b2 <;> decide) | decide
  have hi : LinkPhases.isInitial x = false := by
    rcases hx with rfl | rfl | rfl | ⟨⟨rfl, -⟩ | rfl | rfl, -⟩ <;> decide
  have hopt : ∀ (p : LinkPhases.Phase) (o : Opts), p.opts = linkOpts o → LinkPhases.optimize p x = some false →
      flagV o (x ++ "_optimize") = false ∧ o (x ++ "_optimize") ≠ none := by
    intro p o hp hf
    unfold LinkPhases.optimize at hf
    rw [hp] at hf
    simp only [linkOpts] at hf
    split at hf
    · rename_i b hb
      simp only [Option.some.injEq] at hf
      subst hf
      exact ⟨by simp [flagV, hb], by simp [hb]⟩
    · simp at hf
  refine LinkPhases.linkPair_continuous h hm hs hi hp1 hp2 (.inl hv1) (.inl hv2) (fun e => e.1 hv1) ?_ hpin
  rintro ⟨f1, f2⟩
  obtain ⟨g1, n1⟩ := hopt p1 o1 h1.2.1 f1
  obtain ⟨g2, -⟩ := hopt p2 o2 h2.2.1 f2
  have hno : ∀ y, (y = "time" ∨ y = "distance" ∨ y = "mass") → o1 (y ++ "_optimize") = none := by
    intro y hy
    apply h1.1
    rcases hy with rfl | rfl | rfl <;> cases b1 <;> decide +kernel
  rcases hx with hx | hx | hx | ⟨-, hx | hx⟩
  · exact n1 (hno x (.inl hx))
  · exact n1 (hno x (.inr (.inl hx)))
  · exact n1 (hno x (.inr (.inr hx)))
  · rw [g1] at hx; cases hx
  · rw [g2] at hx; cases hx

/-- The defaults are options that are accepted. -/
theorem defaults_ok : WellTyped energyOptions (defaults energyOptions) ∧ WellTyped solvedOptions (defaults solvedOptions) := by
  have h1 : ∀ k ∈ kinds energyOptions, (defaults energyOptions k.1).map Val.kind = some k.2 := by decide +kernel
  have h2 : ∀ k ∈ kinds solvedOptions, (defaults solvedOptions k.1).map Val.kind = some k.2 := by decide +kernel
  constructor
  · intro k hk
    have := h1 k hk
    cases hv : defaults energyOptions k.1 with
    | none => rw [hv] at this; cases this
    | some v => rw [hv] at this; exact ⟨v, rfl, Option.some.inj this⟩
  · intro k hk
    have := h2 k hk
    cases hv : defaults solvedOptions k.1 with
    | none => rw [hv] at this; cases this
    | some v => rw [hv] at this; exact ⟨v, rfl, Option.some.inj this⟩

/-- A rotation with the default options; the length is given. -/
def rotation : Opts := fun k =>
  if k = "rotation" then some (.flag true) else if k = "time_duration" then some (.opt (some 1000) "ft") else defaults solvedOptions k

example : ∃ r, solved (fun _ x => x) 1 [] rotation {} = .ok r ∧ r.nodes = (1, 3) ∧
    r.phase.controls.map (·.name) = ["mach", "altitude", "angle_of_attack"] ∧
    r.time = ⟨false, true, some (none, none), some 1, none, none, false⟩ := ⟨_, rfl, by decide +kernel⟩

example : ∃ p, energy 1 [] (defaults energyOptions) { scheme := .picard } = .ok (p, 1, 3) := ⟨_, rfl⟩

end Verif.SolvedPhases
