import Verif.Model.FlightPhase
import Mathlib.Tactic.Linarith
import Mathlib.Tactic.FieldSimp
import Mathlib.Tactic.NormNum
import Mathlib.Tactic.Ring
import Mathlib.Algebra.BigOperators.Group.List.Basic

/-!
# C90: what a built flight phase enforces

The calls recorded by the model of `FlightPhaseBase.build_phase` get a meaning here: a trajectory gives the values of
every variable at the nodes of the phase, and it is feasible when it meets every constraint and every bound the phase
was given.  The theorems say which options of the user hold on every feasible trajectory, and which do not.
-/

namespace Verif.FlightPhase

/-- Values of each variable at the nodes of the phase, in the order of time. -/
abbrev Traj := String → List ℚ

/-- `x` lies within optional limits. -/
def Within (lo up : Option ℚ) (x : ℚ) : Prop := (∀ l, lo = some l → l ≤ x) ∧ (∀ u, up = some u → x ≤ u)

/-- The meaning of a constraint. -/
def Con.Holds (c : Con) (t : Traj) : Prop :=
  let P (x : ℚ) := Within c.lower c.upper x ∧ ∀ v, c.equals = some v → x = v
  match c.loc with
  | some .initial => ∀ x, (t c.target).head? = some x → P x
  | some .final => ∀ x, (t c.target).getLast? = some x → P x
  | none => ∀ x ∈ t c.target, P x

/-- A trajectory the optimiser may return: all constraints and the bounds of the states and of the optimised controls
hold. -/
structure Feasible (p : Phase) (t : Traj) : Prop where
  cons : ∀ c ∈ p.cons, c.Holds t
  states : ∀ s ∈ p.states, ∀ x ∈ t s.name, Within s.lower s.upper x
  controls : ∀ c ∈ p.controls, c.opt = true → ∀ x ∈ t c.name, Within c.lower c.upper x

/-- Executable check of `Within`. -/
def withinB (lo up : Option ℚ) (x : ℚ) : Bool := (lo.all fun l => decide (l ≤ x)) && (up.all fun u => decide (x ≤ u))

/-- Executable check of `Con.Holds`. -/
def holdsB (c : Con) (t : Traj) : Bool :=
  let P (x : ℚ) : Bool := withinB c.lower c.upper x && (c.equals.all fun v => decide (x = v))
  match c.loc with
  | some .initial => (t c.target).head?.all P
  | some .final => (t c.target).getLast?.all P
  | none => (t c.target).all P

/-- Executable check of `Feasible`, used for the concrete trajectories below. -/
def feasB (p : Phase) (t : Traj) : Bool :=
  (p.cons.all fun c => holdsB c t) && (p.states.all fun s => (t s.name).all fun x => withinB s.lower s.upper x) &&
    (p.controls.all fun c => !c.opt || (t c.name).all fun x => withinB c.lower c.upper x)

theorem withinB_iff (lo up : Option ℚ) (x : ℚ) : withinB lo up x = true ↔ Within lo up x := by
  rcases lo with _ | l <;> rcases up with _ | u <;> simp [withinB, Within]

theorem holdsB_iff (c : Con) (t : Traj) : holdsB c t = true ↔ c.Holds t := by
  have hP : ∀ x, (withinB c.lower c.upper x && (c.equals.all fun v => decide (x = v))) = true ↔
      Within c.lower c.upper x ∧ ∀ v, c.equals = some v → x = v := by
    intro x
    rw [Bool.and_eq_true, withinB_iff]
    rcases c.equals with _ | v <;> simp
  unfold holdsB Con.Holds
  rcases c.loc with _ | _ | _
  · simp only [List.all_eq_true, hP]
  · simp only [Option.all_eq_true_iff_get, hP]
    rcases (t c.target).head? with _ | x <;> simp
  · simp only [Option.all_eq_true_iff_get, hP]
    rcases (t c.target).getLast? with _ | x <;> simp

theorem feasB_iff (p : Phase) (t : Traj) : feasB p t = true ↔ Feasible p t := by
  simp only [feasB, Bool.and_eq_true, List.all_eq_true, holdsB_iff, withinB_iff, Bool.or_eq_true, Bool.not_eq_true']
  constructor
  · rintro ⟨⟨h1, h2⟩, h3⟩
    exact ⟨h1, h2, fun c hc ho x hx => (h3 c hc).elim (fun h => by rw [ho] at h; cases h) fun h => h x hx⟩
  · rintro ⟨h1, h2, h3⟩
    refine ⟨⟨h1, h2⟩, fun c hc => ?_⟩
    rcases ho : c.opt
    · exact .inl rfl
    · exact .inr (h3 c hc ho)

/-- A phase was built and the trajectory is feasible for it. -/
def builtFeasB (r : Except Err Phase) (t : Traj) : Bool :=
  match r with
  | .ok p => feasB p t
  | .error _ => false

theorem builtFeas {r : Except Err Phase} {t : Traj} (h : builtFeasB r t = true) :
    ∃ p, r = .ok p ∧ Feasible p t := by
  rcases r with e | p
  · cases h
  · exact ⟨p, rfl, (feasB_iff p t).1 h⟩

/-! ## C90 -/

/-- The constraints `add_control` adds. -/
def ctrlCons (o : CtrlOpts) (target : String) (add : Bool) : List Con :=
  if add && o.optimize then
    (o.initial.toList.map fun v => {
        target := target, loc := some .initial, equals := some v, units := some o.units,
        ref := some (ctrlRef o) }) ++
    (o.final.toList.map fun v => {
        target := target, loc := some .final, equals := some v, units := some o.units, ref := some (ctrlRef o) })
  else []

/-- The constraint `add_state` adds. -/
def stateCons (o : StateOpts) (target : String) : List Con :=
  o.final.toList.map fun f => {
      target := target, loc := some .final, equals := some f, units := some o.units, ref := some f }

theorem addControl_cons (p : Phase) (o : CtrlOpts) (n : String) (r r2 : Option (List String)) (a : Bool) :
    (addControl p o n r r2 a).cons = p.cons ++ ctrlCons o n a := by
  cases a <;> rcases hi : o.initial with _ | i <;> rcases hf : o.final with _ | f <;> cases ho : o.optimize <;>
    simp [addControl, ctrlCons, hi, hf, ho]

theorem addControl_states (p : Phase) (o : CtrlOpts) (n : String) (r r2 : Option (List String)) (a : Bool) :
    (addControl p o n r r2 a).states = p.states ∧ (addControl p o n r r2 a).allocs = p.allocs ∧
      (addControl p o n r r2 a).timeseries = p.timeseries ++ [n] ∧
      ∃ c : CtrlCall, (addControl p o n r r2 a).controls = p.controls ++ [c] ∧ c.name = n ∧ c.opt = o.optimize ∧
        c.lower = (if o.optimize then o.lower else none) ∧ c.upper = (if o.optimize then o.upper else none) ∧
        c.rateTargets = r ∧ c.rate2Targets = r2 := by
  cases a <;> exact ⟨rfl, rfl, rfl, _, rfl, rfl, rfl, rfl, rfl, rfl, rfl⟩

theorem addState_cons (p : Phase) (o : StateOpts) (n r : String) :
    (addState p o n r).cons = p.cons ++ stateCons o n ∧ (addState p o n r).controls = p.controls ∧
      (addState p o n r).allocs = p.allocs ∧
      ∃ s : StateCall, (addState p o n r).states = p.states ++ [s] ∧ s.name = n ∧ s.lower = o.lower ∧
        s.upper = o.upper ∧ s.rateSource = r ∧ s.fixInitial = o.initial.isSome := by
  rcases hf : o.final with _ | f
  · simp [addState, hf, stateCons]
  · simp [addState, hf, stateCons]

/-- All states, controls and constraints of every subsystem are added, in order, and nothing is removed. -/
theorem addSubsystems_spec (subs : List Subsystem) : ∀ p q, addSubsystems p subs = .ok q →
    q.states = p.states ++ subs.flatMap (·.states) ∧ q.controls = p.controls ++ subs.flatMap (·.controls) ∧
    q.allocs = p.allocs ∧ q.timeseries = p.timeseries ∧
    ∃ cs : List (List Con), List.Forall₂ (fun s l => subsystemCons s.constraints = .ok l) subs cs ∧
      q.cons = p.cons ++ cs.flatten := by
  induction subs with
  | nil =>
    intro p q h
    simp only [addSubsystems, Except.ok.injEq] at h
    subst h
    exact ⟨by simp, by simp, rfl, rfl, [], .nil, by simp⟩
  | cons s r ih =>
    intro p q h
    simp only [addSubsystems] at h
    rcases hc : subsystemCons s.constraints with e | cs
    · rw [hc] at h; cases h
    · rw [hc] at h
      obtain ⟨h1, h2, h3, h4, l, h5, h6⟩ := ih _ _ h
      refine ⟨by rw [h1]; simp, by rw [h2]; simp, h3, h4, cs :: l, .cons hc h5, by rw [h6]; simp⟩

/-- The shape of every phase that is built: which constraints it has, and in which order. -/
theorem build_shape {es : Bool} {n : ℕ} {subs : List Subsystem} {o : Opts} {p : Phase}
    (h : build es n subs o = .ok p) :
    ∃ (sc : List (List Con)) (uc : List Con),
      List.Forall₂ (fun s l => subsystemCons s.constraints = .ok l) subs sc ∧
      userCons o.constraints = .ok uc ∧
      p.cons = stateCons o.mass "mass" ++ (if es then stateCons o.distance "distance" else []) ++ sc.flatten ++
        ctrlCons o.mach "mach" (!o.has "mach") ++ ctrlCons o.altitude "altitude" (!o.has "altitude") ++
        (if o.enforcement = .control then ctrlCons o.throttle "throttle" true else []) ++ flightCons o ++ uc ∧
      p.states.map (·.name) =
        ["mass"] ++ (if es then ["distance"] else []) ++ (subs.flatMap (·.states)).map (·.name) ∧
      p.controls.map (·.name) = (subs.flatMap (·.controls)).map (·.name) ++ ["mach", "altitude"] ++
        (if o.enforcement = .control then ["throttle"] else []) ∧
      p.allocs = allocCalls es n o.allocation ∧
      (o.enforcement = .control → ∃ c ∈ p.controls, c.name = "throttle" ∧ c.opt = o.throttle.optimize ∧
        c.lower = (if o.throttle.optimize then o.throttle.lower else none) ∧
        c.upper = (if o.throttle.optimize then o.throttle.upper else none)) ∧
      (∃ c ∈ p.controls, c.name = "mach" ∧ c.opt = o.mach.optimize ∧
        c.lower = (if o.mach.optimize then o.mach.lower else none) ∧
        c.upper = (if o.mach.optimize then o.mach.upper else none) ∧
        c.rateTargets = some [if es then "mach_rate" else "dmach_dr"] ∧ c.rate2Targets = none) ∧
      (∃ c ∈ p.controls, c.name = "altitude" ∧ c.opt = o.altitude.optimize ∧
        c.lower = (if o.altitude.optimize then o.altitude.lower else none) ∧
        c.upper = (if o.altitude.optimize then o.altitude.upper else none) ∧
        c.rateTargets = some [if es && !o.groundRoll then "altitude_rate" else "dh_dr"] ∧
        c.rate2Targets = if es && !o.groundRoll then none else some ["d2h_dr2"]) ∧
      (∃ s ∈ p.states, s.name = "mass" ∧ s.lower = o.mass.lower ∧ s.upper = o.mass.upper ∧
        s.fixInitial = o.mass.initial.isSome ∧
        s.rateSource = if es then "fuel_mass_flow_rate_negative_total" else "dmass_dr") := by
  simp only [build] at h
  set p0 := addState {} o.mass "mass" (if es then "fuel_mass_flow_rate_negative_total" else "dmass_dr") with hp0
  obtain ⟨a1, a2, a3, s0, a4, a5, a6, a7, a8, a9⟩ := addState_cons {} o.mass "mass"
    (if es then "fuel_mass_flow_rate_negative_total" else "dmass_dr")
  rw [← hp0] at a1 a2 a3 a4
  set p1 := (if es then addState p0 o.distance "distance" "distance_rate" else p0) with hp1
  have b : p1.cons = p0.cons ++ (if es then stateCons o.distance "distance" else []) ∧ p1.controls = [] ∧
      p1.allocs = [] ∧ p1.states.map (·.name) = ["mass"] ++ (if es then ["distance"] else []) ∧
      s0 ∈ p1.states := by
    obtain ⟨b1, b2, b3, s1, b4, b5, -⟩ := addState_cons p0 o.distance "distance" "distance_rate"
    cases es
    · rw [hp1]
      simp only [Bool.false_eq_true, if_false]
      rw [a2, a3, a4]
      simp [a5]
    · rw [hp1]
      simp only [if_true]
      rw [b1, b2, b3, b4, a2, a3, a4]
      simp [a5, b5]
  obtain ⟨b1, b2, b3, b4, b5⟩ := b
  rcases hs : addSubsystems p1 subs with e | p2
  · rw [hs] at h; cases h
  rw [hs] at h
  dsimp only at h
  obtain ⟨c1, c2, c3, -, sc, c5, c6⟩ := addSubsystems_spec subs p1 p2 hs
  set p3 := addControl p2 o.mach "mach" (some [if es then "mach_rate" else "dmach_dr"]) none (!o.has "mach") with hp3
  have d1 := addControl_cons p2 o.mach "mach" (some [if es then "mach_rate" else "dmach_dr"]) none (!o.has "mach")
  obtain ⟨d2, d3, -, m, d4, d5, d6, d7, d8, d9, d10⟩ := addControl_states p2 o.mach "mach"
    (some [if es then "mach_rate" else "dmach_dr"]) none (!o.has "mach")
  rw [← hp3] at d1 d2 d3 d4
  set p4 := (if es && !o.groundRoll
      then addControl p3 o.altitude "altitude" (some ["altitude_rate"]) none (!o.has "altitude")
      else addControl p3 o.altitude "altitude" (some ["dh_dr"]) (some ["d2h_dr2"]) (!o.has "altitude")) with hp4
  have hp4' : p4 = addControl p3 o.altitude "altitude" (some [if es && !o.groundRoll then "altitude_rate" else "dh_dr"])
      (if es && !o.groundRoll then none else some ["d2h_dr2"]) (!o.has "altitude") := by
    rw [hp4]; cases es && !o.groundRoll <;> rfl
  have e1 := addControl_cons p3 o.altitude "altitude" (some [if es && !o.groundRoll then "altitude_rate" else "dh_dr"])
      (if es && !o.groundRoll then none else some ["d2h_dr2"]) (!o.has "altitude")
  obtain ⟨e2, e3, -, l, e4, e5, e6, e7, e8, e9, e10⟩ := addControl_states p3 o.altitude "altitude"
    (some [if es && !o.groundRoll then "altitude_rate" else "dh_dr"])
    (if es && !o.groundRoll then none else some ["d2h_dr2"]) (!o.has "altitude")
  rw [← hp4'] at e1 e2 e3 e4
  set p5 := (if o.enforcement = .control then addControl p4 o.throttle "throttle" none none true else p4) with hp5
  have f : p5.cons = p4.cons ++ (if o.enforcement = .control then ctrlCons o.throttle "throttle" true else []) ∧
      p5.states = p4.states ∧ p5.allocs = p4.allocs ∧
      (∀ c ∈ p4.controls, c ∈ p5.controls) ∧
      p5.controls.map (·.name) = p4.controls.map (·.name) ++
        (if o.enforcement = .control then ["throttle"] else []) ∧
      (o.enforcement = .control → ∃ c ∈ p5.controls, c.name = "throttle" ∧ c.opt = o.throttle.optimize ∧
        c.lower = (if o.throttle.optimize then o.throttle.lower else none) ∧
        c.upper = (if o.throttle.optimize then o.throttle.upper else none)) := by
    have f1 := addControl_cons p4 o.throttle "throttle" none none true
    obtain ⟨f2, f3, -, c, f4, f5, f6, f7, f8, -⟩ := addControl_states p4 o.throttle "throttle" none none true
    by_cases hc : o.enforcement = .control
    · rw [hp5, if_pos hc, if_pos hc, if_pos hc]
      refine ⟨f1, f2, f3, fun x hx => by rw [f4]; simp [hx], by rw [f4]; simp [f5], fun _ => ⟨c, by rw [f4]; simp, f5,
        f6, f7, f8⟩⟩
    · rw [hp5, if_neg hc, if_neg hc, if_neg hc]
      exact ⟨by simp, rfl, rfl, fun _ hx => hx, by simp, fun h => absurd h hc⟩
  obtain ⟨f1, f2, f3, f4, f5, f6⟩ := f
  rcases hu : userCons o.constraints with e | uc
  · rw [hu] at h; cases h
  rw [hu] at h
  simp only [Except.ok.injEq] at h
  subst h
  refine ⟨sc, uc, c5, rfl, ?_, ?_, ?_, ?_, f6, ⟨m, f4 m ?_, d5, d6, d7, d8, d9, d10⟩,
    ⟨l, f4 l ?_, e5, e6, e7, e8, e9, e10⟩, ⟨s0, ?_, a5, a6, a7, a9, a8⟩⟩
  · rw [f1, e1, d1, c6, b1, a1]
    simp
  · show p5.states.map _ = _
    rw [f2, e2, d2, c1, List.map_append, b4]
  · show p5.controls.map _ = _
    rw [f5, e4, d4, c2, b2]
    simp [d5, e5]
  · show p5.allocs ++ _ = _
    rw [f3, e3, d3, c3, b3]
    rfl
  · rw [e4, d4]; simp
  · rw [e4]; simp
  · show s0 ∈ p5.states
    rw [f2, e2, d2, c1]
    exact List.mem_append_left _ b5

/-- A requested final mass is met by every feasible trajectory, whatever else the user asks for. -/
theorem mass_final {es : Bool} {n : ℕ} {subs : List Subsystem} {o : Opts} {p : Phase} {t : Traj} {f x : ℚ}
    (h : build es n subs o = .ok p) (ht : Feasible p t) (hf : o.mass.final = some f)
    (hx : (t "mass").getLast? = some x) : x = f := by
  obtain ⟨sc, uc, -, -, hc, -⟩ := build_shape h
  have := ht.cons {
      target := "mass", loc := some .final, equals := some f, units := some o.mass.units,
      ref := some f } (by rw [hc]; simp [stateCons, hf])
  exact (this x hx).2 f rfl

theorem distance_final {n : ℕ} {subs : List Subsystem} {o : Opts} {p : Phase} {t : Traj} {f x : ℚ}
    (h : build true n subs o = .ok p) (ht : Feasible p t) (hf : o.distance.final = some f)
    (hx : (t "distance").getLast? = some x) : x = f := by
  obtain ⟨sc, uc, -, -, hc, -⟩ := build_shape h
  have := ht.cons {
      target := "distance", loc := some .final, equals := some f, units := some o.distance.units,
      ref := some f } (by rw [hc]; simp [stateCons, hf])
  exact (this x hx).2 f rfl

/-- The full claim for a control: a requested end value is met by every feasible trajectory whenever the control is
optimised. -/
def EndsMet (name : String) (sel : Opts → CtrlOpts) : Prop :=
  ∀ (es : Bool) (n : ℕ) (subs : List Subsystem) (o : Opts) (p : Phase) (t : Traj),
    build es n subs o = .ok p → Feasible p t → (sel o).optimize = true →
    (∀ v x, (sel o).initial = some v → (t name).head? = some x → x = v) ∧
    (∀ v x, (sel o).final = some v → (t name).getLast? = some x → x = v)

/-- Requested end values of Mach number and altitude hold when the user gives no constraint of that name. -/
theorem ends_met_partial {es : Bool} {n : ℕ} {subs : List Subsystem} {o : Opts} {p : Phase} {t : Traj}
    (h : build es n subs o = .ok p) (ht : Feasible p t) :
    (o.mach.optimize = true → o.has "mach" = false →
      (∀ v x, o.mach.initial = some v → (t "mach").head? = some x → x = v) ∧
      (∀ v x, o.mach.final = some v → (t "mach").getLast? = some x → x = v)) ∧
    (o.altitude.optimize = true → o.has "altitude" = false →
      (∀ v x, o.altitude.initial = some v → (t "altitude").head? = some x → x = v) ∧
      (∀ v x, o.altitude.final = some v → (t "altitude").getLast? = some x → x = v)) := by
  obtain ⟨sc, uc, -, -, hc, -⟩ := build_shape h
  refine ⟨fun ho hu => ⟨fun v x hv hx => ?_, fun v x hv hx => ?_⟩, fun ho hu => ⟨fun v x hv hx => ?_, fun v x hv hx => ?_⟩⟩
  · have := ht.cons {
      target := "mach", loc := some .initial, equals := some v, units := some o.mach.units,
      ref := some (ctrlRef o.mach) } (by rw [hc]; simp [ctrlCons, hv, ho, hu])
    exact (this x hx).2 v rfl
  · have := ht.cons {
      target := "mach", loc := some .final, equals := some v, units := some o.mach.units,
      ref := some (ctrlRef o.mach) } (by rw [hc]; simp [ctrlCons, hv, ho, hu])
    exact (this x hx).2 v rfl
  · have := ht.cons {
      target := "altitude", loc := some .initial, equals := some v, units := some o.altitude.units,
      ref := some (ctrlRef o.altitude) } (by rw [hc]; simp [ctrlCons, hv, ho, hu])
    exact (this x hx).2 v rfl
  · have := ht.cons {
      target := "altitude", loc := some .final, equals := some v, units := some o.altitude.units,
      ref := some (ctrlRef o.altitude) } (by rw [hc]; simp [ctrlCons, hv, ho, hu])
    exact (this x hx).2 v rfl

/-- Options of a climb from Mach 1/5 to 7/10. -/
def climb : Opts where
  mass := { units := "kg", ref := 10000, lower := some 0 }
  distance := { units := "m", ref := 1000000, lower := some 0 }
  mach := { units := "unitless", ref := 1 / 2, initial := some (1 / 5), final := some (7 / 10) }
  altitude := { units := "ft", initial := some 0, final := some 30000 }
  throttle := { units := "unitless", lower := some 0, upper := some 1 }
  noDescent := true

/-- The same climb with a ceiling on the Mach number along the path. -/
def cappedClimb : Opts :=
  { climb with constraints := [("mach", { type := some "path", upper := some (4 / 5) })] }

/-- A path constraint of the user on the Mach number silently removes both requested end values. -/
theorem ends_met_violated : ¬ EndsMet "mach" Opts.mach := by
  intro h
  obtain ⟨p, hp, ht⟩ := builtFeas (r := build true 1 [] cappedClimb)
    (t := fun v => if v = "mach" then [1 / 2] else if v = "altitude" then [0, 30000] else []) (by decide +kernel)
  have := (h true 1 [] cappedClimb p _ hp ht rfl).1 (1 / 5) (1 / 2) rfl rfl
  norm_num at this

/-- The same for the altitude: a limit on the altitude drops its end values. -/
theorem ends_met_altitude_violated : ¬ EndsMet "altitude" Opts.altitude := by
  intro h
  obtain ⟨p, hp, ht⟩ := builtFeas
    (r := build true 1 [] { climb with constraints := [("altitude", { type := some "path", lower := some 0 })] })
    (t := fun v => if v = "altitude" then [0, 100] else if v = "mach" then [1 / 5, 7 / 10] else []) (by decide +kernel)
  have := (h true 1 [] _ p _ hp ht rfl).2 30000 100 rfl rfl
  norm_num at this

/-- The end values are met by a feasible trajectory of the plain climb, so `ends_met_partial` is not vacuous. -/
example : ∃ p, build true 1 [] climb = .ok p ∧
    Feasible p (fun v => if v = "mach" then [1 / 5, 1 / 2, 7 / 10] else
      if v = "altitude" then [0, 10000, 30000] else if v = "altitude_rate" then [10, 20, 5] else
      if v = "throttle" then [1, 9 / 10, 4 / 5] else []) :=
  builtFeas (by decide +kernel)

/-- The full claim about the options `no_descent` and `no_climb`. -/
def VerticalLimits : Prop :=
  ∀ (es : Bool) (n : ℕ) (subs : List Subsystem) (o : Opts) (p : Phase) (t : Traj),
    build es n subs o = .ok p → Feasible p t →
    (o.noDescent = true → ∀ x ∈ t "altitude_rate", 0 ≤ x) ∧ (o.noClimb = true → ∀ x ∈ t "altitude_rate", x ≤ 0)

/-- Both options hold at every node when the user has no constraint on the rate of climb; with both options the flight
is level. -/
theorem verticalLimits_partial {es : Bool} {n : ℕ} {subs : List Subsystem} {o : Opts} {p : Phase} {t : Traj}
    (h : build es n subs o = .ok p) (ht : Feasible p t) (hu : o.has "altitude_rate" = false) :
    (o.noDescent = true → ∀ x ∈ t "altitude_rate", 0 ≤ x) ∧
    (o.noClimb = true → ∀ x ∈ t "altitude_rate", x ≤ 0) ∧
    (o.noDescent = true → o.noClimb = true → ∀ x ∈ t "altitude_rate", x = 0) := by
  obtain ⟨sc, uc, -, -, hc, -⟩ := build_shape h
  have a : o.noDescent = true → ∀ x ∈ t "altitude_rate", 0 ≤ x := by
    intro hd x hx
    have := ht.cons { target := "altitude_rate", loc := none, lower := some 0, ref := some 20 }
      (by rw [hc]; simp [flightCons, hd, hu])
    exact (this x hx).1.1 0 rfl
  have b : o.noClimb = true → ∀ x ∈ t "altitude_rate", x ≤ 0 := by
    intro hd x hx
    have := ht.cons { target := "altitude_rate", loc := none, upper := some 0, ref := some 20 }
      (by rw [hc]; simp [flightCons, hd, hu])
    exact (this x hx).1.2 0 rfl
  exact ⟨a, b, fun h1 h2 x hx => le_antisymm (b h2 x hx) (a h1 x hx)⟩

/-- A ceiling of the user on the rate of climb switches `no_descent` off: the phase may descend. -/
theorem verticalLimits_violated : ¬ VerticalLimits := by
  intro h
  obtain ⟨p, hp, ht⟩ := builtFeas
    (r := build true 1 [] { climb with constraints := [("altitude_rate", { type := some "path", upper := some 50 })] })
    (t := fun v => if v = "altitude_rate" then [20, -5, 20] else []) (by decide +kernel)
  have := (h true 1 [] _ p _ hp ht).1 rfl (-5) (by simp)
  norm_num at this

/-- The throttle limits each choice of `throttle_enforcement` gives when the user has no constraint on the throttle. -/
theorem throttle_limits {es : Bool} {n : ℕ} {subs : List Subsystem} {o : Opts} {p : Phase} {t : Traj}
    (h : build es n subs o = .ok p) (ht : Feasible p t) :
    (o.has "throttle" = false → o.enforcement = .path → ∀ x ∈ t "throttle", 0 ≤ x ∧ x ≤ 1) ∧
    (o.has "throttle" = false → o.enforcement = .boundary →
      (∀ x, (t "throttle").head? = some x → 0 ≤ x ∧ x ≤ 1) ∧
      (∀ x, (t "throttle").getLast? = some x → 0 ≤ x ∧ x ≤ 1)) ∧
    (o.enforcement = .control → o.throttle.optimize = true →
      ∀ x ∈ t "throttle", Within o.throttle.lower o.throttle.upper x) := by
  obtain ⟨sc, uc, -, -, hc, -, -, -, hthr, -⟩ := build_shape h
  refine ⟨fun hu he x hx => ?_, fun hu he => ⟨fun x hx => ?_, fun x hx => ?_⟩, fun he ho x hx => ?_⟩
  · have := ht.cons { target := "throttle", loc := none, lower := some 0, upper := some 1, units := some "unitless" }
      (by rw [hc]; simp [flightCons, he, hu])
    exact ⟨(this x hx).1.1 0 rfl, (this x hx).1.2 1 rfl⟩
  · have := ht.cons {
      target := "throttle", loc := some .initial, lower := some 0, upper := some 1,
      units := some "unitless" } (by rw [hc]; simp [flightCons, he, hu])
    exact ⟨(this x hx).1.1 0 rfl, (this x hx).1.2 1 rfl⟩
  · have := ht.cons {
      target := "throttle", loc := some .final, lower := some 0, upper := some 1,
      units := some "unitless" } (by rw [hc]; simp [flightCons, he, hu])
    exact ⟨(this x hx).1.1 0 rfl, (this x hx).1.2 1 rfl⟩
  · obtain ⟨c, hcm, h1, h2, h3, h4⟩ := hthr he
    rw [ho] at h2 h3 h4
    have := ht.controls c hcm h2 x (by rw [h1]; exact hx)
    rwa [h3, h4] at this

/-- With boundary constraints the throttle may exceed one inside the phase, and any constraint of the user on the
throttle, even a lower limit, removes the built-in ceiling. -/
theorem throttle_limits_violated :
    (∃ o p t, build true 1 [] o = .ok p ∧ Feasible p t ∧ o.enforcement = .boundary ∧ (2 : ℚ) ∈ t "throttle") ∧
    (∃ o p t, build true 1 [] o = .ok p ∧ Feasible p t ∧ o.enforcement = .path ∧ (2 : ℚ) ∈ t "throttle") := by
  constructor
  · obtain ⟨p, hp, ht⟩ := builtFeas (r := build true 1 [] { climb with enforcement := .boundary })
      (t := fun v => if v = "throttle" then [1, 2, 1] else []) (by decide +kernel)
    exact ⟨_, p, _, hp, ht, rfl, by simp⟩
  · obtain ⟨p, hp, ht⟩ := builtFeas
      (r := build true 1 [] { climb with constraints := [("throttle", { type := some "path", lower := some (1 / 10) })] })
      (t := fun v => if v = "throttle" then [1, 2, 1] else []) (by decide +kernel)
    exact ⟨_, p, _, hp, ht, rfl, by simp⟩

/-- The climb rate the propulsion must be able to give holds at every node unless the user constrains it. -/
theorem climbRate_limit {es : Bool} {n : ℕ} {subs : List Subsystem} {o : Opts} {p : Phase} {t : Traj} {r : ℚ}
    (h : build es n subs o = .ok p) (ht : Feasible p t) (hu : o.has "altitude_rate_max" = false)
    (hr : o.climbRate = some r) : ∀ x ∈ t "altitude_rate_max", r ≤ x := by
  obtain ⟨sc, uc, -, -, hc, -⟩ := build_shape h
  intro x hx
  have := ht.cons { target := "altitude_rate_max", loc := none, lower := some r, units := some o.climbRateUnits }
    (by rw [hc]; simp [flightCons, hr, hu])
  exact (this x hx).1.1 r rfl

/-- Bounds of Mach number, altitude and mass hold at every node. -/
theorem bounds_hold {es : Bool} {n : ℕ} {subs : List Subsystem} {o : Opts} {p : Phase} {t : Traj}
    (h : build es n subs o = .ok p) (ht : Feasible p t) :
    (o.mach.optimize = true → ∀ x ∈ t "mach", Within o.mach.lower o.mach.upper x) ∧
    (o.altitude.optimize = true → ∀ x ∈ t "altitude", Within o.altitude.lower o.altitude.upper x) ∧
    (∀ x ∈ t "mass", Within o.mass.lower o.mass.upper x) := by
  obtain ⟨sc, uc, -, -, -, -, -, -, -, ⟨c, hc, c1, c2, c3, c4, -⟩, ⟨d, hd, d1, d2, d3, d4, -⟩,
    ⟨s, hs, s1, s2, s3, -⟩⟩ := build_shape h
  refine ⟨fun ho x hx => ?_, fun ho x hx => ?_, fun x hx => ?_⟩
  · rw [ho] at c2 c3 c4
    have := ht.controls c hc c2 x (by rw [c1]; exact hx)
    rwa [c3, c4] at this
  · rw [ho] at d2 d3 d4
    have := ht.controls d hd d2 x (by rw [d1]; exact hx)
    rwa [d3, d4] at this
  · have := ht.states s hs x (by rw [s1]; exact hx)
    rwa [s2, s3] at this

/-- Inputs of the two ODEs for the rates of the controls, aviary/mission/energy_state/ode/energy_state_ODE.py and
aviary/mission/solved_two_dof/ode/{gamma_comp,unsteady_solved_eom}.py. -/
def odeRates (es : Bool) : List String :=
  if es then ["mach_rate", "altitude_rate"] else ["dmach_dr", "dh_dr", "d2h_dr2"]

/-- Every rate a control is connected to is an input of the ODE, unless the phase is an energy-state ground roll. -/
theorem rateTargets_partial {es : Bool} {n : ℕ} {o : Opts} {p : Phase} (h : build es n [] o = .ok p)
    (hg : es = true → o.groundRoll = false) :
    ∃ m ∈ p.controls, ∃ a ∈ p.controls, m.name = "mach" ∧ a.name = "altitude" ∧
      (∀ r ∈ m.rateTargets.getD [] ++ m.rate2Targets.getD [] ++ a.rateTargets.getD [] ++ a.rate2Targets.getD [],
        r ∈ odeRates es) := by
  obtain ⟨sc, uc, -, -, -, -, -, -, -, ⟨c, hc, c1, -, -, -, c5, c6⟩, ⟨d, hd, d1, -, -, -, d5, d6⟩, -⟩ := build_shape h
  refine ⟨c, hc, d, hd, c1, d1, ?_⟩
  rw [c5, c6, d5, d6]
  cases es
  · simp [odeRates]
  · simp [odeRates, hg rfl]

/-- The energy-state ground roll connects the altitude rate to inputs its ODE does not have. -/
theorem rateTargets_violated {n : ℕ} {o : Opts} {p : Phase} (h : build true n [] o = .ok p)
    (hg : o.groundRoll = true) :
    ∃ a ∈ p.controls, a.name = "altitude" ∧ ∃ r ∈ a.rateTargets.getD [], r ∉ odeRates true := by
  obtain ⟨sc, uc, -, -, -, -, -, -, -, -, ⟨d, hd, d1, -, -, -, d5, d6⟩, -⟩ := build_shape h
  refine ⟨d, hd, d1, "dh_dr", ?_, by decide⟩
  rw [d5, hg]
  simp

/-- The option `<state>_constraint_ref` has no effect: the documented scaling of the final constraint is never used. -/
theorem constraintRef_violated (p : Phase) (o : StateOpts) (n r : String) (c : Option ℚ) :
    addState p { o with constraintRef := c } n r = addState p o n r := rfl

/-- What is used instead is the final value itself, so a final value of zero gives the reference zero. -/
theorem constraintRef_zero_violated (p : Phase) (o : StateOpts) (n r : String) (hf : o.final = some 0) :
    ∃ c ∈ (addState p o n r).cons, c.target = n ∧ c.ref = some 0 := by
  refine ⟨{ target := n, loc := some .final, equals := some 0, units := some o.units, ref := some 0 }, ?_, rfl, rfl⟩
  rw [(addState_cons p o n r).1]
  simp [stateCons, hf]

theorem le_maxAbs (l : List ℚ) : 0 ≤ maxAbs l ∧ (∀ x ∈ l, |x| ≤ maxAbs l) ∧
    (l = [] ∨ ∃ x ∈ l, maxAbs l = |x|) := by
  induction l with
  | nil => simp [maxAbs]
  | cons a r ih =>
    obtain ⟨h0, h1, h2⟩ := ih
    have e : maxAbs (a :: r) = max |a| (maxAbs r) := rfl
    rw [e]
    refine ⟨le_max_of_le_right h0, ?_, .inr ?_⟩
    · intro x hx
      rcases List.mem_cons.1 hx with rfl | hx
      · exact le_max_left _ _
      · exact le_max_of_le_right (h1 x hx)
    · rcases h2 with rfl | ⟨x, hx, hxe⟩
      · exact ⟨a, by simp, by simp [maxAbs]⟩
      · rcases le_total |a| (maxAbs r) with h | h
        · exact ⟨x, by simp [hx], by rw [max_eq_right h, hxe]⟩
        · exact ⟨a, by simp, max_eq_left h⟩

/-- The scaling of a control: a reference other than one is kept; otherwise it is the largest magnitude among bounds and
end values, so all of them scale into [-1, 1]; without any of them it stays one. -/
theorem ctrlRef_spec (o : CtrlOpts) :
    (o.ref ≠ 1 → ctrlRef o = o.ref) ∧
    (o.ref = 1 → ∀ x, (o.lower = some x ∨ o.upper = some x ∨ o.initial = some x ∨ o.final = some x) →
      |x| ≤ ctrlRef o) ∧
    (o.ref = 1 → ctrlRef o = 1 ∨ ∃ x, (o.lower = some x ∨ o.upper = some x ∨ o.initial = some x ∨ o.final = some x) ∧
      ctrlRef o = |x|) ∧
    (o.ref = 1 → o.lower = none → o.upper = none → o.initial = none → o.final = none → ctrlRef o = 1) := by
  refine ⟨fun h => by simp [ctrlRef, h], fun h x hx => ?_, fun h => ?_, fun h h1 h2 h3 h4 => ?_⟩
  · have hm : x ∈ [o.lower, o.upper, o.initial, o.final].filterMap id := by
      rw [List.mem_filterMap]
      rcases hx with hx | hx | hx | hx
      · exact ⟨_, by simp, hx⟩
      · exact ⟨_, List.mem_cons_of_mem _ (List.mem_cons_self ..), hx⟩
      · exact ⟨o.initial, by simp, hx⟩
      · exact ⟨o.final, by simp, hx⟩
    have hl := List.length_pos_of_mem hm
    simp only [ctrlRef, h, if_true]
    rw [if_pos hl]
    exact (le_maxAbs _).2.1 x hm
  · simp only [ctrlRef, h, if_true]
    split
    · rename_i hl
      rcases (le_maxAbs ([o.lower, o.upper, o.initial, o.final].filterMap id)).2.2 with he | ⟨x, hx, he⟩
      · rw [he] at hl; simp at hl
      · refine .inr ⟨x, ?_, he⟩
        obtain ⟨y, hy, rfl⟩ := List.mem_filterMap.1 hx
        simp only [List.mem_cons, List.not_mem_nil, or_false] at hy
        rcases hy with hy | hy | hy | hy
        · exact .inl (hy ▸ rfl)
        · exact .inr (.inl (hy ▸ rfl))
        · exact .inr (.inr (.inl (hy ▸ rfl)))
        · exact .inr (.inr (.inr (hy ▸ rfl)))
    · exact .inl rfl
  · simp [ctrlRef, h, h1, h2, h3, h4]

/-- The reference is zero, and the scaling undefined, when the only values given are zero; and a reference of one that
the user asks for is replaced. -/
theorem ctrlRef_violated :
    ctrlRef { units := "ft", initial := some 0, final := some 0 } = 0 ∧
    ctrlRef { units := "ft", ref := 1, final := some 30000 } = 30000 := by
  constructor <;> decide +kernel

/-- With several engine types the allocations default to an even split, remainder included. -/
theorem allocation_even {n : ℕ} {subs : List Subsystem} {o : Opts} {p : Phase}
    (h : build true n subs o = .ok p) (hn : 1 < n) :
    ∃ a, p.allocs = [a] ∧ a.val.length = n - 1 ∧ (∀ v ∈ a.val, v = 1 / n) ∧ 1 - a.val.sum = 1 / n ∧
      (a.opt = true ↔ o.allocation ≠ .fixed) ∧ (a.opt = true → a.lower = some 0 ∧ a.upper = some 1) ∧
      (a.dynamic = true ↔ o.allocation = .dynamic) := by
  obtain ⟨sc, uc, -, -, -, -, -, ha, -⟩ := build_shape h
  have hs : 1 - (List.replicate (n - 1) (1 * (1 / (n : ℚ)))).sum = 1 / n := by
    rw [List.sum_replicate, nsmul_eq_mul, Nat.cast_sub hn.le]
    have : (n : ℚ) ≠ 0 := by positivity
    field_simp
    push_cast
    ring
  rw [ha]
  rcases o.allocation <;> simp only [allocCalls, Bool.true_and, decide_eq_true_eq, gt_iff_lt, if_pos hn] <;>
    refine ⟨_, rfl, by simp, fun v hv => ?_, hs, by simp, by simp, by simp⟩ <;>
    · rw [List.eq_of_mem_replicate hv]; ring

/-- One engine type, or equations that solve for the thrust: no allocation variable. -/
theorem allocation_none {es : Bool} {n : ℕ} {subs : List Subsystem} {o : Opts} {p : Phase}
    (h : build es n subs o = .ok p) (hn : n ≤ 1 ∨ es = false) : p.allocs = [] := by
  obtain ⟨sc, uc, -, -, -, -, -, ha, -⟩ := build_shape h
  rw [ha]
  rcases hn with hn | hn
  · simp [allocCalls, Nat.not_lt.2 hn]
  · simp [allocCalls, hn]

/-- A user constraint is accepted exactly when it is a boundary constraint with a location, or a path constraint
without location and target; what is added carries the user's values. -/
theorem userCon_ok_iff (n : String) (c : UserCon) :
    (∃ x, userCon n c = .ok x) ↔
      (c.type = some "boundary" ∧ c.loc ≠ none) ∨ (c.type = some "path" ∧ c.loc = none ∧ c.target = none) := by
  unfold userCon
  rcases c with ⟨ty, tg, lc, lo, up, eq, un, rf⟩
  dsimp only
  split
  · simp
  · rcases lc with _ | l <;> rcases tg with _ | g <;> simp
  · rcases lc with _ | l <;> rcases tg with _ | g <;> simp
  · rename_i h1 h2
    simp_all

/-- The value of an accepted constraint. -/
theorem userCon_ok {n : String} {c : UserCon} {x : Con} (h : userCon n c = .ok x) :
    x.target = c.target.getD n ∧ x.aliasName = c.target.map (fun _ => n) ∧ x.loc = c.loc ∧ x.lower = c.lower ∧
      x.upper = c.upper ∧ x.equals = c.equals ∧ x.units = c.units ∧ x.ref = c.ref := by
  unfold userCon at h
  rcases c with ⟨ty, tg, lc, lo, up, eq, un, rf⟩
  dsimp only at h ⊢
  split at h
  · cases h
  · rcases lc with _ | l <;> rcases tg with _ | g <;> simp at h <;> subst h <;> simp
  · rcases lc with _ | l <;> rcases tg with _ | g <;> simp at h <;> subst h <;> simp
  · cases h

/-- The user's constraints are added one for one, in order. -/
theorem userCons_iff (l : List (String × UserCon)) (xs : List Con) :
    userCons l = .ok xs ↔ List.Forall₂ (fun nc x => userCon nc.1 nc.2 = .ok x) l xs := by
  induction l generalizing xs with
  | nil => cases xs <;> simp [userCons]
  | cons a r ih =>
    obtain ⟨n, c⟩ := a
    simp only [userCons]
    rcases hu : userCon n c with e | x
    · cases xs <;> simp [hu]
    · rcases hr : userCons r with e | ys
      · cases xs with
        | nil => simp
        | cons y ys =>
          simp only [reduceCtorEq, List.forall₂_cons, false_iff, not_and]
          intro _ h
          rw [← ih, hr] at h
          cases h
      · cases xs with
        | nil => simp
        | cons y zs =>
          simp only [Except.ok.injEq, List.cons.injEq, List.forall₂_cons, ← ih, hr, hu]

/-- Every constraint of the user holds on a feasible trajectory: at the requested end or at all nodes. -/
theorem user_constraints_hold {es : Bool} {n : ℕ} {subs : List Subsystem} {o : Opts} {p : Phase} {t : Traj}
    (h : build es n subs o = .ok p) (ht : Feasible p t) (name : String) (c : UserCon)
    (hm : (name, c) ∈ o.constraints) (x : ℚ)
    (hx : match c.loc with
      | some .initial => (t (c.target.getD name)).head? = some x
      | some .final => (t (c.target.getD name)).getLast? = some x
      | none => x ∈ t (c.target.getD name)) :
    Within c.lower c.upper x ∧ ∀ v, c.equals = some v → x = v := by
  obtain ⟨sc, uc, -, hu, hc, -⟩ := build_shape h
  rw [userCons_iff] at hu
  have key : ∃ y ∈ uc, userCon name c = .ok y := by
    clear hc ht h hx
    generalize o.constraints = l at hu hm
    induction hu with
    | nil => simp at hm
    | cons hab _ ih =>
      rcases List.mem_cons.1 hm with he | hm
      · rw [← he] at hab
        exact ⟨_, List.mem_cons_self .., hab⟩
      · obtain ⟨y, hy, hy'⟩ := ih hm
        exact ⟨y, by simp [hy], hy'⟩
  obtain ⟨y, hy, hok⟩ := key
  obtain ⟨e1, -, e2, e3, e4, e5, -⟩ := userCon_ok hok
  have := ht.cons y (by rw [hc]; simp [hy])
  unfold Con.Holds at this
  rw [e1, e2, e3, e4, e5] at this
  rcases hl : c.loc with _ | _ | _ <;> rw [hl] at this hx <;> exact this x hx

/-- The phase is refused exactly when a constraint of the user or of a subsystem is malformed. -/
theorem build_ok_iff (es : Bool) (n : ℕ) (subs : List Subsystem) (o : Opts) :
    (∃ p, build es n subs o = .ok p) ↔
      (∀ s ∈ subs, ∃ l, subsystemCons s.constraints = .ok l) ∧ ∃ l, userCons o.constraints = .ok l := by
  have hsub : ∀ p, (∃ q, addSubsystems p subs = .ok q) ↔ ∀ s ∈ subs, ∃ l, subsystemCons s.constraints = .ok l := by
    induction subs with
    | nil => intro p; simp [addSubsystems]
    | cons s r ih =>
      intro p
      simp only [addSubsystems, List.forall_mem_cons]
      rcases hs : subsystemCons s.constraints with e | cs
      · simp
      · dsimp only
        rw [ih]
        simp
  constructor
  · rintro ⟨p, hp⟩
    obtain ⟨sc, uc, hs, hu, -⟩ := build_shape hp
    refine ⟨fun s hm => ?_, uc, hu⟩
    clear hp hsub
    induction hs with
    | nil => simp at hm
    | cons hab _ ih =>
      rcases List.mem_cons.1 hm with rfl | hm
      · exact ⟨_, hab⟩
      · exact ih hm
  · rintro ⟨hs, l, hu⟩
    simp only [build]
    obtain ⟨q, hq⟩ := (hsub (if es then addState (addState {} o.mass "mass"
      (if es then "fuel_mass_flow_rate_negative_total" else "dmass_dr")) o.distance "distance" "distance_rate" else
      addState {} o.mass "mass" (if es then "fuel_mass_flow_rate_negative_total" else "dmass_dr"))).2 hs
    rw [hq, hu]
    exact ⟨_, rfl⟩

/-- The message for a bad constraint type of a subsystem cannot be made: the builder has no `pathname`, so the user sees
an AttributeError, where the same mistake in the phase options gives the ValueError. -/
theorem subsystem_message_violated (n : String) (c : UserCon) (ty : String) (ht : c.type = some ty)
    (h1 : ty ≠ "boundary") (h2 : ty ≠ "path") :
    subsystemCon n c = .error .attribute ∧ userCon n c = .error .value := by
  unfold subsystemCon userCon
  rw [ht]
  constructor <;> · split <;> simp_all

/-- Phases name their states and controls without repetition as long as the subsystems do. -/
theorem names_nodup {es : Bool} {n : ℕ} {subs : List Subsystem} {o : Opts} {p : Phase}
    (h : build es n subs o = .ok p)
    (hs : ("mass" :: "distance" :: (subs.flatMap (·.states)).map (·.name)).Nodup)
    (hc : ((subs.flatMap (·.controls)).map (·.name) ++ ["mach", "altitude", "throttle"]).Nodup) :
    (p.states.map (·.name)).Nodup ∧ (p.controls.map (·.name)).Nodup := by
  obtain ⟨sc, uc, -, -, -, h1, h2, -⟩ := build_shape h
  rw [h1, h2]
  constructor
  · cases es
    · simp only [List.nodup_cons, List.mem_cons, not_or] at hs
      simp [hs.1.2, hs.2.2]
    · simpa using hs
  · by_cases he : o.enforcement = .control
    · simpa [he] using hc
    · rw [if_neg he, List.append_nil]
      refine hc.sublist (List.Sublist.append_left ?_ _)
      simp

/-- The new state is integrated forward exactly when the user asks for solved segments, and every option of the user
reaches it. -/
theorem addState_call (p : Phase) (o : StateOpts) (n r : String) :
    ∃ s, (addState p o n r).states = p.states ++ [s] ∧ (s.forward = true ↔ o.solveSegments = true) ∧ s.units = o.units ∧
      s.ref = o.ref ∧ s.ref0 = o.ref0 ∧ s.defectRef = o.defectRef ∧ s.rateSource = r ∧ s.name = n := by
  unfold addState
  dsimp only
  split <;> exact ⟨_, rfl, Iff.rfl, rfl, rfl, rfl, rfl, rfl, rfl⟩

/-- The new control has no units exactly when the user calls them unitless, otherwise the user's; scaling is given
exactly when it is optimised. -/
theorem addControl_call (p : Phase) (o : CtrlOpts) (n : String) (r r2 : Option (List String)) (a : Bool) :
    ∃ c, (addControl p o n r r2 a).controls = p.controls ++ [c] ∧ c.name = n ∧ (c.units = none ↔ o.units = "unitless") ∧
      (∀ u, c.units = some u → u = o.units) ∧ (c.ref ≠ none ↔ o.optimize = true) ∧
      (o.optimize = true → c.ref0 = o.ref0) ∧ c.polynomial = o.polynomialOrder ∧
      (addControl p o n r r2 a).timeseries = p.timeseries ++ [n] := by
  refine ⟨_, by unfold addControl; dsimp only; split <;> rfl, rfl, ?_, ?_, ?_, ?_, rfl,
    by unfold addControl; dsimp only; split <;> rfl⟩
  · dsimp only; split <;> simp_all
  · intro u
    dsimp only
    split <;> simp_all
  · dsimp only; split <;> simp_all
  · intro h
    dsimp only
    rw [if_pos h]

/-- How a malformed constraint is reported: a missing type as KeyError, an unknown type as ValueError, and arguments which
do not fit the type as TypeError of the called method. -/
theorem userCon_error_iff (n : String) (c : UserCon) (e : Err) :
    userCon n c = .error e ↔
      (c.type = none ∧ e = .key) ∨
      (c.type = some "boundary" ∧ c.loc = none ∧ e = .type) ∨
      (c.type = some "path" ∧ (c.loc ≠ none ∨ c.target ≠ none) ∧ e = .type) ∨
      (c.type ≠ none ∧ c.type ≠ some "boundary" ∧ c.type ≠ some "path" ∧ e = .value) := by
  unfold userCon
  rcases c with ⟨ty, tg, lc, lo, up, eq, un, rf⟩
  dsimp only
  split
  · simp [eq_comm]
  · rcases lc with _ | l <;> rcases tg with _ | g <;> simp [eq_comm]
  · rcases lc with _ | l <;> rcases tg with _ | g <;> simp [eq_comm]
  · rename_i h1 h2
    simp_all [eq_comm]

/-- The constraints of a subsystem are added one for one, in order, and each carries the values given. -/
theorem subsystemCons_ok {l : List (String × UserCon)} {xs : List Con} (h : subsystemCons l = .ok xs) :
    List.Forall₂ (fun nc (x : Con) => x.target = nc.1 ∧ x.loc = nc.2.loc ∧ x.lower = nc.2.lower ∧
      x.upper = nc.2.upper ∧ x.equals = nc.2.equals ∧ x.units = nc.2.units ∧ x.ref = nc.2.ref) l xs := by
  induction l generalizing xs with
  | nil =>
    simp only [subsystemCons, Except.ok.injEq] at h
    subst h
    exact .nil
  | cons a r ih =>
    obtain ⟨n, c⟩ := a
    simp only [subsystemCons] at h
    rcases hu : subsystemCon n c with e | x
    · rw [hu] at h; cases h
    · rw [hu] at h
      dsimp only at h
      rcases hr : subsystemCons r with e | ys
      · rw [hr] at h; cases h
      · rw [hr] at h
        simp only [Except.ok.injEq] at h
        subst h
        refine .cons ?_ (ih hr)
        unfold subsystemCon at hu
        rcases c with ⟨ty, tg, lc, lo, up, eq, un, rf⟩
        dsimp only at hu ⊢
        split at hu
        · cases hu
        · rcases lc with _ | l <;> rcases tg with _ | g <;> simp at hu <;> subst hu <;> simp
        · rcases lc with _ | l <;> rcases tg with _ | g <;> simp at hu <;> subst hu <;> simp
        · cases hu

/-- Every constraint of a subsystem holds on a feasible trajectory. -/
theorem subsystem_constraints_hold {es : Bool} {n : ℕ} {subs : List Subsystem} {o : Opts} {p : Phase} {t : Traj}
    (h : build es n subs o = .ok p) (ht : Feasible p t) {s : Subsystem} (hs : s ∈ subs) (name : String) (c : UserCon)
    (hm : (name, c) ∈ s.constraints) (x : ℚ)
    (hx : match c.loc with
      | some .initial => (t name).head? = some x
      | some .final => (t name).getLast? = some x
      | none => x ∈ t name) :
    Within c.lower c.upper x ∧ ∀ v, c.equals = some v → x = v := by
  obtain ⟨sc, uc, hf, -, hc, -⟩ := build_shape h
  have k1 : ∃ l ∈ sc, subsystemCons s.constraints = .ok l := by
    clear hc h
    induction hf with
    | nil => simp at hs
    | cons hab _ ih =>
      rcases List.mem_cons.1 hs with rfl | hs
      · exact ⟨_, List.mem_cons_self .., hab⟩
      · obtain ⟨y, hy, hy'⟩ := ih hs
        exact ⟨y, by simp [hy], hy'⟩
  obtain ⟨l, hl, hok⟩ := k1
  have k2 := subsystemCons_ok hok
  have k3 : ∃ y ∈ l, y.target = name ∧ y.loc = c.loc ∧ y.lower = c.lower ∧ y.upper = c.upper ∧
      y.equals = c.equals := by
    clear hok hl
    generalize s.constraints = m at k2 hm
    induction k2 with
    | nil => simp at hm
    | cons hab _ ih =>
      rcases List.mem_cons.1 hm with he | hm
      · rw [← he] at hab
        exact ⟨_, List.mem_cons_self .., hab.1, hab.2.1, hab.2.2.1, hab.2.2.2.1, hab.2.2.2.2.1⟩
      · obtain ⟨y, hy, hy'⟩ := ih hm
        exact ⟨y, by simp [hy], hy'⟩
  obtain ⟨y, hy, e1, e2, e3, e4, e5⟩ := k3
  have hy' : y ∈ p.cons := by
    rw [hc]
    simp only [List.mem_append, List.mem_flatten]
    exact .inl <| .inl <| .inl <| .inl <| .inl <| .inr ⟨l, hl, hy⟩
  have := ht.cons y hy'
  unfold Con.Holds at this
  rw [e1, e2, e3, e4, e5] at this
  rcases hl : c.loc with _ | _ | _ <;> rw [hl] at this hx <;> exact this x hx

/-- No output is requested twice for the time series, and throttle, Mach number and altitude are always there. -/
theorem timeseries_nodup {es : Bool} {n : ℕ} {subs : List Subsystem} {o : Opts} {p : Phase}
    (h : build es n subs o = .ok p) :
    p.timeseries.Nodup ∧ "throttle" ∈ p.timeseries ∧ "mach" ∈ p.timeseries ∧ "altitude" ∈ p.timeseries := by
  have st : ∀ p o n r, (addState p o n r).timeseries = p.timeseries := by
    intro p o n r
    unfold addState
    dsimp only
    split <;> rfl
  have ct : ∀ p o n r r2 a, (addControl p o n r r2 a).timeseries = p.timeseries ++ [n] := by
    intro p o n r r2 a
    unfold addControl
    dsimp only
    split <;> rfl
  simp only [build] at h
  set p1 := (if es then addState (addState {} o.mass "mass"
      (if es then "fuel_mass_flow_rate_negative_total" else "dmass_dr")) o.distance "distance" "distance_rate" else
      addState {} o.mass "mass" (if es then "fuel_mass_flow_rate_negative_total" else "dmass_dr")) with hp1
  have h1 : p1.timeseries = [] := by
    rw [hp1]; split <;> simp [st]
  rcases hs : addSubsystems p1 subs with e | p2
  · rw [hs] at h; cases h
  rw [hs] at h
  dsimp only at h
  obtain ⟨-, -, -, h2, -⟩ := addSubsystems_spec subs p1 p2 hs
  rcases hu : userCons o.constraints with e | uc
  · rw [hu] at h; cases h
  rw [hu] at h
  simp only [Except.ok.injEq] at h
  have key : p.timeseries = ["mach", "altitude"] ++ (if o.enforcement = .control then ["throttle"] else []) ++
      flightTimeseries es o := by
    rw [← h]
    dsimp only
    congr 1
    by_cases hc : o.enforcement = .control
    · rw [if_pos hc, if_pos hc, ct]
      split <;> simp [ct, h2, h1]
    · rw [if_neg hc, if_neg hc]
      split <;> simp [ct, h2, h1]
  rw [key]
  unfold flightTimeseries
  by_cases hc : o.enforcement = .control <;> cases es <;> simp [hc]

end Verif.FlightPhase
