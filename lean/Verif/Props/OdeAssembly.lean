import Verif.Model.OdeAssembly
import Verif.Lemmas.Dict
import Mathlib.Data.List.Basic
import Mathlib.Data.List.Nodup

/-! # Properties of the assembly of an ODE -/

namespace Verif.OdeAssembly

variable {O C : Type}

/-- The entry of a subsystem: its mission component with promotions for its own options. -/
def entry (all : Dict String O) (empty : O) (s : Sub O C) : Option (Placed C) :=
  (s.build ((all.get? s.name).getD empty)).map fun c =>
    ⟨s.name, c, s.ins ((all.get? s.name).getD empty), s.outs ((all.get? s.name).getD empty)⟩

/-- A subsystem that asks for a solver. -/
def wants (all : Dict String O) (empty : O) (s : Sub O C) : Bool := s.needs ((all.get? s.name).getD empty)

/-- What belongs into the ODE and into the solver group. -/
def odePart (has : Bool) (all : Dict String O) (empty : O) (l : List (Sub O C)) : List (Placed C) :=
  (l.filter fun s => !(wants all empty s && has)).filterMap (entry all empty)
def solverPart (has : Bool) (all : Dict String O) (empty : O) (l : List (Sub O C)) : List (Placed C) :=
  (l.filter fun s => wants all empty s && has).filterMap (entry all empty)

theorem odePart_cons (has : Bool) (all : Dict String O) (empty : O) (s : Sub O C) (l : List (Sub O C)) :
    odePart has all empty (s :: l) =
      (if (wants all empty s && has) = true then [] else (entry all empty s).toList) ++ odePart has all empty l := by
  unfold odePart
  cases hw : wants all empty s <;> cases has <;> cases he : entry all empty s <;> simp [hw, he]

theorem solverPart_cons (has : Bool) (all : Dict String O) (empty : O) (s : Sub O C) (l : List (Sub O C)) :
    solverPart has all empty (s :: l) =
      (if (wants all empty s && has) = true then (entry all empty s).toList else []) ++ solverPart has all empty l := by
  unfold solverPart
  cases hw : wants all empty s <;> cases has <;> cases he : entry all empty s <;> simp [hw, he]

theorem add_eq (g : List (Placed C)) (p : Placed C) (g' : List (Placed C)) :
    add g p = .ok g' ↔ p.name ∉ g.map Placed.name ∧ g' = g ++ [p] := by
  unfold add; split_ifs with h
  · simp [h]
  · simp [h, eq_comm]

/-- The loop, when it succeeds, puts every subsystem that has a mission component into its group, in the given order. -/
theorem loop_spec (has : Bool) (all : Dict String O) (empty : O) (l : List (Sub O C)) (g r : Groups C) (use u : Bool)
    (h : loop has all empty l g use = .ok (r, u)) :
    r.ode = g.ode ++ odePart has all empty l ∧ r.solver = g.solver ++ solverPart has all empty l ∧
    u = (use || decide (solverPart has all empty l ≠ [])) := by
  induction l generalizing g use with
  | nil =>
    simp only [loop, Except.ok.injEq, Prod.mk.injEq] at h
    obtain ⟨rfl, rfl⟩ := h
    simp [odePart, solverPart]
  | cons s l ih =>
    simp only [loop, step, optionsOf] at h
    cases hb : s.build ((all.get? s.name).getD empty) with
    | none =>
      simp only [hb, bind, Except.bind] at h
      have := ih _ _ h
      have e : entry all empty s = none := by simp [entry, hb]
      rw [odePart_cons, solverPart_cons, e]
      simpa only [Option.toList_none, ite_self, List.nil_append] using this
    | some c =>
      have e : entry all empty s = some ⟨s.name, c, s.ins ((all.get? s.name).getD empty), s.outs ((all.get? s.name).getD empty)⟩ := by
        simp [entry, hb]
      simp only [hb] at h
      by_cases hw : (wants all empty s && has) = true
      · have hw' : (s.needs ((all.get? s.name).getD empty) && has) = true := hw
        simp only [hw', if_true] at h
        cases ha : add g.solver ⟨s.name, c, s.ins ((all.get? s.name).getD empty), s.outs ((all.get? s.name).getD empty)⟩ with
        | error x => simp [ha, bind, Except.bind] at h
        | ok g' =>
          simp only [ha, bind, Except.bind] at h
          have := ih _ _ h
          rw [(add_eq _ _ _).1 ha |>.2] at this
          rw [odePart_cons, solverPart_cons, e, if_pos hw, if_pos hw]
          simpa only [Option.toList_some, List.nil_append, List.append_assoc, List.singleton_append, Bool.true_or, ne_eq,
            reduceCtorEq, not_false_eq_true, decide_true, Bool.or_true] using this
      · have hw' : (s.needs ((all.get? s.name).getD empty) && has) = false := Bool.not_eq_true _ ▸ hw
        have hw2 : (wants all empty s && has) = false := hw'
        simp only [hw'] at h
        cases ha : add g.ode ⟨s.name, c, s.ins ((all.get? s.name).getD empty), s.outs ((all.get? s.name).getD empty)⟩ with
        | error x => simp [ha, bind, Except.bind] at h
        | ok g' =>
          simp only [ha, bind, Except.bind] at h
          have := ih _ _ h
          rw [(add_eq _ _ _).1 ha |>.2] at this
          rw [odePart_cons, solverPart_cons, e, if_neg hw, if_neg hw]
          simpa only [Option.toList_some, List.nil_append, List.append_assoc, List.singleton_append] using this

/-- The loop succeeds exactly when no name is used twice in a group. -/
theorem loop_ok_iff (has : Bool) (all : Dict String O) (empty : O) (l : List (Sub O C)) (g : Groups C) (use : Bool)
    (h1 : (g.ode.map Placed.name).Nodup) (h2 : (g.solver.map Placed.name).Nodup) :
    (∃ r, loop has all empty l g use = .ok r) ↔
      ((g.ode ++ odePart has all empty l).map Placed.name).Nodup ∧
      ((g.solver ++ solverPart has all empty l).map Placed.name).Nodup := by
  induction l generalizing g use with
  | nil => simpa [loop, odePart, solverPart] using ⟨h1, h2⟩
  | cons s l ih =>
    simp only [loop, step, optionsOf]
    cases hb : s.build ((all.get? s.name).getD empty) with
    | none =>
      have e : entry all empty s = none := by simp [entry, hb]
      simp only [bind, Except.bind]
      rw [ih g use h1 h2]
      rw [odePart_cons, solverPart_cons, e]
      simp only [Option.toList_none, ite_self, List.nil_append]
    | some c =>
      have e : entry all empty s = some ⟨s.name, c, s.ins ((all.get? s.name).getD empty), s.outs ((all.get? s.name).getD empty)⟩ := by
        simp [entry, hb]
      by_cases hw : (wants all empty s && has) = true
      · have hw' : (s.needs ((all.get? s.name).getD empty) && has) = true := hw
        have eo : odePart has all empty (s :: l) = odePart has all empty l := by
          rw [odePart_cons, if_pos hw]; rfl
        have es : solverPart has all empty (s :: l) =
            ⟨s.name, c, s.ins ((all.get? s.name).getD empty), s.outs ((all.get? s.name).getD empty)⟩ :: solverPart has all empty l := by
          rw [solverPart_cons, if_pos hw, e]; rfl
        simp only [hw', if_true, eo, es]
        by_cases hn : s.name ∈ g.solver.map Placed.name
        · have : add g.solver ⟨s.name, c, s.ins ((all.get? s.name).getD empty), s.outs ((all.get? s.name).getD empty)⟩ =
              .error .runtimeError := by simp only [add, hn, if_true]
          simp only [this, bind, Except.bind]
          constructor
          · rintro ⟨r, hr⟩; cases hr
          · rintro ⟨_, hd⟩
            rw [List.map_append, List.nodup_append] at hd
            exact absurd rfl (hd.2.2 _ hn s.name (by simp))
        · have : add g.solver ⟨s.name, c, s.ins ((all.get? s.name).getD empty), s.outs ((all.get? s.name).getD empty)⟩ =
              .ok (g.solver ++ [⟨s.name, c, s.ins ((all.get? s.name).getD empty), s.outs ((all.get? s.name).getD empty)⟩]) := by
            simp only [add, hn, if_false]
          simp only [this, bind, Except.bind]
          have := ih ⟨g.ode, g.solver ++ [⟨s.name, c, s.ins ((all.get? s.name).getD empty), s.outs ((all.get? s.name).getD empty)⟩]⟩ true
            h1 (by
              simp only [List.map_append, List.map_cons, List.map_nil]
              exact List.Nodup.append h2 (by simp) (by simpa using hn))
          simpa [List.append_assoc] using this
      · have hw' : (s.needs ((all.get? s.name).getD empty) && has) = false := Bool.not_eq_true _ ▸ hw
        have hw2 : (wants all empty s && has) = false := hw'
        have eo : solverPart has all empty (s :: l) = solverPart has all empty l := by
          rw [solverPart_cons, if_neg hw]; rfl
        have es : odePart has all empty (s :: l) =
            ⟨s.name, c, s.ins ((all.get? s.name).getD empty), s.outs ((all.get? s.name).getD empty)⟩ :: odePart has all empty l := by
          rw [odePart_cons, if_neg hw, e]; rfl
        simp only [hw', eo, es]
        by_cases hn : s.name ∈ g.ode.map Placed.name
        · have : add g.ode ⟨s.name, c, s.ins ((all.get? s.name).getD empty), s.outs ((all.get? s.name).getD empty)⟩ =
              .error .runtimeError := by simp only [add, hn, if_true]
          simp only [this, bind, Except.bind]
          constructor
          · rintro ⟨r, hr⟩; simp at hr
          · rintro ⟨hd, _⟩
            rw [List.map_append, List.nodup_append] at hd
            exact absurd rfl (hd.2.2 _ hn s.name (by simp))
        · have : add g.ode ⟨s.name, c, s.ins ((all.get? s.name).getD empty), s.outs ((all.get? s.name).getD empty)⟩ =
              .ok (g.ode ++ [⟨s.name, c, s.ins ((all.get? s.name).getD empty), s.outs ((all.get? s.name).getD empty)⟩]) := by
            simp only [add, hn, if_false]
          simp only [this, bind, Except.bind]
          have := ih ⟨g.ode ++ [⟨s.name, c, s.ins ((all.get? s.name).getD empty), s.outs ((all.get? s.name).getD empty)⟩], g.solver⟩ use
            (by
              simp only [List.map_append, List.map_cons, List.map_nil]
              exact List.Nodup.append h1 (by simp) (by simpa using hn)) h2
          simpa [List.append_assoc] using this

/-- Nothing is lost and nothing is added twice. -/
theorem parts_count (has : Bool) (all : Dict String O) (empty : O) (l : List (Sub O C)) :
    (odePart has all empty l).length + (solverPart has all empty l).length = (l.filterMap (entry all empty)).length := by
  induction l with
  | nil => simp [odePart, solverPart]
  | cons s l ih =>
    rw [odePart_cons, solverPart_cons, List.filterMap_cons]
    cases he : entry all empty s with
    | none => simpa using ih
    | some p => split_ifs <;> simp <;> omega

/-- Without a solver group everything goes into the ODE and the flag stays false, whatever the subsystems ask for. -/
theorem no_solver_group (all : Dict String O) (empty : O) (l : List (Sub O C)) (g r : Groups C) (u : Bool)
    (h : addSubsystems false all empty l g = .ok (r, u)) :
    r.ode = g.ode ++ l.filterMap (entry all empty) ∧ r.solver = g.solver ∧ u = false := by
  obtain ⟨h1, h2, h3⟩ := loop_spec _ _ _ _ _ _ _ _ h
  have e1 : odePart false all empty l = l.filterMap (entry all empty) := by simp [odePart]
  have e2 : solverPart false all empty l = [] := by simp [solverPart]
  rw [e1] at h1; rw [e2] at h2 h3
  exact ⟨h1, by simpa using h2, by simpa using h3⟩

/-- With a solver group the flag tells whether a subsystem with a mission component asks for the solver. -/
theorem flag_iff (all : Dict String O) (empty : O) (l : List (Sub O C)) (g r : Groups C) (u : Bool)
    (h : addSubsystems true all empty l g = .ok (r, u)) :
    u = true ↔ ∃ s ∈ l, wants all empty s = true ∧ (entry all empty s).isSome := by
  obtain ⟨-, -, h3⟩ := loop_spec _ _ _ _ _ _ _ _ h
  rw [h3]
  simp only [Bool.false_or, decide_eq_true_eq]
  have hmem : solverPart true all empty l ≠ [] ↔ ∃ p, p ∈ solverPart true all empty l :=
    ⟨List.exists_mem_of_ne_nil _, fun ⟨_, hp⟩ => List.ne_nil_of_mem hp⟩
  rw [hmem]
  simp only [solverPart, List.mem_filterMap, List.mem_filter, Bool.and_true, Option.isSome_iff_exists]
  constructor
  · rintro ⟨p, s, ⟨hs, hw⟩, he⟩; exact ⟨s, hs, hw, p, he⟩
  · rintro ⟨s, hs, hw, p, he⟩; exact ⟨p, s, ⟨hs, hw⟩, he⟩

/-- Options given for another name do not reach a subsystem. -/
theorem entry_other (all : Dict String O) (empty : O) (s : Sub O C) (k : String) (o : O) (hk : k ≠ s.name) :
    entry (all.set k o) empty s = entry all empty s ∧ wants (all.set k o) empty s = wants all empty s := by
  simp only [entry, wants, Dict.get?_set_ne _ _ hk, and_self]

/-- Options given for its name do. -/
theorem entry_own (all : Dict String O) (empty : O) (s : Sub O C) (o : O) :
    entry (all.set s.name o) empty s = (s.build o).map fun c => ⟨s.name, c, s.ins o, s.outs o⟩ := by
  simp only [entry, Dict.get?_set_self, Option.getD_some]

/-- Two subsystems, one of them in the solver group. -/
example : ∃ g, addSubsystems true [("prop", 3)] 0
    [⟨"aero", fun o => some o, fun _ => true, fun _ => [], fun _ => ["drag"]⟩,
     ⟨"none", fun _ => none, fun _ => true, fun _ => [], fun _ => []⟩,
     ⟨"prop", fun o => some o, fun _ => false, fun _ => ["mach"], fun _ => []⟩] ⟨[], []⟩ = .ok (g, true) ∧
    g.ode = [⟨"prop", 3, ["mach"], []⟩] ∧ g.solver = [⟨"aero", 0, [], ["drag"]⟩] := ⟨_, rfl, rfl, rfl⟩

/-! ### Controllers -/

/-- Exactly these modes can be used. -/
theorem alpha_ok_iff (m : Mode) (b : Bool) :
    (∃ r, alpha m b = .ok r) ↔ m ∈ [Mode.default, .rotation, .loadFactor, .fuselagePitch, .deceleration, .requiredLift] := by
  cases m <;> simp [alpha, comp]

/-- The documented mode that holds the rate of the altitude raises. -/
theorem altitude_rate_violated (b : Bool) : alpha .altitudeRate b = .error .unboundLocal := rfl

/-- Every balance is between -2 degrees and at most 25, and all but the one for lift have a constant target. -/
theorem alpha_balance (m : Mode) (b s : Bool) (lo hi : Int) (l : String) (r : Option String)
    (h : alpha m b = .ok (some (.balance lo hi l r, s))) :
    s = b ∧ lo = -2 ∧ (hi = 12 ↔ m = .requiredLift) ∧ hi ≤ 25 ∧ (r = none ↔ m ≠ .requiredLift) := by
  cases m <;> simp [alpha, comp] at h <;> obtain ⟨⟨rfl, rfl, rfl, rfl⟩, rfl⟩ := h <;> simp

/-- A solver is only set when asked for, and never for the rotation. -/
theorem alpha_solver (m : Mode) (b s : Bool) (c : Ctl) (h : alpha m b = .ok (some (c, s))) : s = true ↔ b = true ∧ m ≠ .rotation := by
  cases m <;> simp [alpha, comp] at h <;> obtain ⟨-, rfl⟩ := h <;> simp

/-- A solver is not only set for balances: the fuselage pitch is a formula and gets one. -/
theorem solver_for_balance_violated : ∃ m l, alpha m true = .ok (some (.formula l, true)) := ⟨.fuselagePitch, _, rfl⟩

/-- The balance of the throttle is added once to a group of its own. -/
theorem throttle_own (s : Thr) (h1 : "thrust_balance" ∉ s.own) (h2 : "prop_group" ∉ s.ode) :
    throttle .own s = .ok ⟨s.shared, s.ode ++ ["prop_group"], s.own ++ ["thrust_balance"]⟩ := by
  simp [throttle, addName, h1, h2, bind, Except.bind]

theorem throttle_self (s : Thr) (h : "thrust_balance" ∉ s.ode) :
    throttle .self s = .ok ⟨s.shared, s.ode ++ ["thrust_balance"], s.own⟩ := by
  simp [throttle, addName, h, bind, Except.bind]

/-- The default group is made once: whatever happens in between, a second ODE of the process cannot use it. -/
theorem throttle_default_violated (s s' : Thr) (o w : List String) (h : throttle .shared s = .ok s') :
    throttle .shared { s' with ode := o, own := w } = .error .runtimeError := by
  simp only [throttle, addName, bind, Except.bind] at h
  by_cases h1 : "thrust_balance" ∈ s.shared
  · simp [h1] at h
  · by_cases h2 : "prop_group" ∈ s.ode
    · simp [h1, h2] at h
    · simp only [h1, h2, if_false, Except.ok.injEq] at h
      subst h
      simp [throttle, addName, bind, Except.bind]

example : ∃ s', throttle .shared ⟨[], ["atmosphere"], []⟩ = .ok s' := ⟨_, rfl⟩

/-! ### Phase -/

variable {V : Type}

theorem merge_get (d e : Dict String V) (k : String) (he : e.keys.Nodup) : (merge d e).get? k = (e.get? k).or (d.get? k) := by
  induction e generalizing d with
  | nil => simp [merge]
  | cons p e ih =>
    obtain ⟨a, v⟩ := p
    simp only [Dict.keys, List.map_cons, List.nodup_cons] at he
    rw [merge, ih _ he.2, Dict.get?_set]
    by_cases h : a = k
    · subst h
      have : Dict.get? e a = none := (Dict.get?_eq_none_iff e a).2 he.1
      simp [Dict.get?, this]
    · simp [Dict.get?, h]

/-- The arguments of the ODE: the subsystems and the options of the builder, then what its class adds, then the aircraft. -/
theorem kwargs_get (b : PB V) (a : V) (k : String) (he : b.extra.keys.Nodup) :
    (kwargs b a).get? k =
      if k = "subsystems" then some b.subsystems
      else if k = "subsystem_options" then b.options.or (b.extra.get? k)
      else if k = "aviary_options" then some ((b.extra.get? k).getD a)
      else b.extra.get? k := by
  have hm := merge_get [("aviary_options", a)] b.extra k he
  unfold kwargs
  by_cases h1 : k = "subsystems"
  · subst h1; simp
  · rw [Dict.get?_set_ne _ _ (Ne.symm h1), if_neg h1]
    cases ho : b.options with
    | none =>
      simp only [hm]
      by_cases h2 : k = "subsystem_options"
      · subst h2; simp [Dict.get?]
      · by_cases h3 : k = "aviary_options"
        · subst h3; cases hx : Dict.get? b.extra "aviary_options" <;> simp [Dict.get?]
        · simp [Dict.get?, h2, h3, Ne.symm h3]
    | some o =>
      simp only [Dict.get?_set, hm]
      by_cases h2 : k = "subsystem_options"
      · subst h2; simp
      · by_cases h3 : k = "aviary_options"
        · subst h3; cases hx : Dict.get? b.extra "aviary_options" <;> simp [Dict.get?]
        · simp [Dict.get?, h2, h3, Ne.symm h2, Ne.symm h3]

/-- The user options of a phase reach its ODE only if the class of the builder adds them. -/
theorem user_options_absent (b : PB V) (av : Option V) (e : V) (he : b.extra.keys.Nodup) (h : "user_options" ∉ b.extra.keys) :
    (buildPhase b av e).kwargs.get? "user_options" = none := by
  have hk : (buildPhase b av e).kwargs = kwargs b (av.getD e) := by unfold buildPhase; split_ifs <;> rfl
  rw [hk, kwargs_get _ _ _ he]
  simpa using (Dict.get?_eq_none_iff _ _).2 h

/-- For a builder of a family: exactly the energy method and the solved phases hand on the user options; the ODEs in two degrees of freedom
and of the detailed phases read the empty default, although they pass it to their subsystems. -/
theorem user_options_violated (f : Family) (b : PB V) (av : Option V) (e : V) (h : b.extra.keys = extraKeys f) :
    ((buildPhase b av e).kwargs.get? "user_options").isSome = true ↔ f ∈ [Family.energy, .solved, .groundroll] := by
  have he : b.extra.keys.Nodup := by rw [h]; cases f <;> decide
  have hk : (buildPhase b av e).kwargs = kwargs b (av.getD e) := by unfold buildPhase; split_ifs <;> rfl
  rw [hk, kwargs_get _ _ _ he]
  have h0 : ((Dict.get? b.extra "user_options").isSome = true) ↔ "user_options" ∈ extraKeys f := by
    rw [← h, ← not_iff_not, Bool.not_eq_true, Option.isSome_eq_false_iff, Option.isNone_iff_eq_none, Dict.get?_eq_none_iff]
  simp only [show ¬("user_options" = "subsystems") by decide, show ¬("user_options" = "subsystem_options") by decide,
    show ¬("user_options" = "aviary_options") by decide, if_false]
  rw [h0]
  cases f <;> decide

/-- The class given, or the default. -/
theorem phase_ode (b : PB V) (av : Option V) (e : V) : (buildPhase b av e).ode = b.ode.getD b.defaultOde := by
  unfold buildPhase; split_ifs <;> rfl

/-- The mission bus has as many segments as the phase, or as an analytic phase has nodes. -/
theorem phase_bus (b : PB V) (av : Option V) (e : V) :
    (b.analytic = true → (buildPhase b av e).transcription = none ∧ (buildPhase b av e).bus = b.nodes) ∧
    (b.analytic = false → ∃ t, (buildPhase b av e).transcription = some t ∧ (buildPhase b av e).bus = t.1 ∧
      (∀ x, b.transcription = some x → t = x) ∧ (b.transcription = none → t = (b.numSegments, b.order))) := by
  constructor
  · intro h; simp [buildPhase, h]
  · intro h
    refine ⟨b.transcription.getD (b.numSegments, b.order), by simp [buildPhase, h], by simp [buildPhase, h], ?_, ?_⟩
    · rintro x hx; simp [hx]
    · rintro hx; simp [hx]

example : ((buildPhase (V := Nat) ⟨none, "ODE", none, 5, 3, false, 7, [("climbing", 1)], some 2, 3⟩ none 9).kwargs).get? "aviary_options" =
    some 9 := by decide

end Verif.OdeAssembly
