import Verif.Model.CommandLine
import Mathlib.Tactic.SplitIfs
import Mathlib.Tactic.Cases
import Mathlib.Tactic.Tauto
import Mathlib.Tactic.Push
import Mathlib.Data.List.Basic

/-!
# C144: the command line
-/

namespace Verif.CommandLine
open Verif.Configure Verif.ProblemSteps

/-! ## Choice of a command -/

/-- The arguments are cut at the first `--`, and nothing is lost. -/
theorem split_spec (argv : List String) :
    ("--" ∈ argv → argv = (split argv).1 ++ "--" :: (split argv).2 ∧ "--" ∉ (split argv).1) ∧
      ("--" ∉ argv → split argv = (argv, [])) := by
  refine ⟨fun h => ?_, fun h => by simp [split, h]⟩
  have hlt := List.idxOf_lt_length_of_mem h
  simp only [split, if_pos h]
  constructor
  · have e : argv.drop (argv.idxOf "--") = "--" :: argv.drop (argv.idxOf "--" + 1) := by
      rw [List.drop_eq_getElem_cons hlt, List.getElem_idxOf]
    rw [← e, List.take_append_drop]
  · intro hm
    obtain ⟨i, hi, he⟩ := List.getElem_of_mem hm
    rw [List.length_take] at hi
    rw [List.getElem_take] at he
    have hi' : i < argv.idxOf "--" := lt_of_lt_of_le hi (min_le_left _ _)
    have := List.not_of_lt_findIdx (p := (· == "--")) (xs := argv) (i := i) (by simpa [List.idxOf] using hi')
    simp [he] at this

example : split ["aviary", "rtplot", "a.py", "--", "x", "--"] = (["aviary", "rtplot", "a.py"], ["x", "--"]) := by decide

theorem noHelp_sub (a : String) (h : a ∈ noHelp) : a ∈ commands.map Prod.fst := by
  simp only [noHelp, List.mem_cons, List.not_mem_nil, or_false] at h
  rcases h with h | h | h | h | h <;> subst h <;> decide

/-- The words of a command line that are no options. -/
def words (argv : List String) : List String := ((split argv).1.drop 1).filter (fun a => !dash a)

/-- The words and options without `-h`. -/
def given (argv : List String) : List String := ((split argv).1.drop 1).filter (fun a => a ≠ "-h")

theorem dispatch_eq (isFile : String → Bool) (parse : List String → Parsed) (argv : List String) :
    dispatch isFile parse argv =
      match (if words argv = [] ∧ given argv = [] then ["-h"] else words argv) with
      | [a] =>
        if (split argv).2 = [] ∧ a ∉ noHelp then help a
        else if a ∈ commands.map Prod.fst then after (split argv).2 (parse ((split argv).1.drop 1))
        else match given argv with
          | [] => .indexError
          | f :: _ => if isFile f then .script a (split argv).2 else after (split argv).2 (parse ((split argv).1.drop 1))
      | _ => after (split argv).2 (parse ((split argv).1.drop 1)) := rfl

theorem after_not_script (u : List String) (p : Parsed) (n : String) (us : List String) : after u p ≠ .script n us := by
  unfold after; split <;> simp

theorem after_not_index (u : List String) (p : Parsed) : after u p ≠ .indexError := by
  unfold after; split <;> simp

theorem help_not_script (a n : String) (us : List String) : help a ≠ .script n us := by
  unfold help; split <;> simp

theorem help_not_index (a : String) : help a ≠ .indexError := by
  unfold help; split <;> simp

/-- A script is run exactly when it is the only word, is no command, arguments for it follow `--`, and the first thing given is a file. -/
theorem dispatch_script_iff (isFile : String → Bool) (parse : List String → Parsed) (argv : List String) (n : String)
    (us : List String) :
    dispatch isFile parse argv = .script n us ↔
      (split argv).2 = us ∧ us ≠ [] ∧ words argv = [n] ∧ n ∉ commands.map Prod.fst ∧
        ∃ f, (given argv).head? = some f ∧ isFile f = true := by
  rw [dispatch_eq]
  by_cases h0 : words argv = [] ∧ given argv = []
  · rw [if_pos h0]
    simp only [h0]
    have h1 : ¬ "-h" ∈ commands.map Prod.fst := by decide
    have h2 : "-h" ∉ noHelp := by decide
    by_cases hu : (split argv).2 = []
    · simp [hu, h2, help_not_script]
    · simp [hu, h1]
  · rw [if_neg h0]
    rcases hw : words argv with _ | ⟨a, _ | ⟨b, r⟩⟩
    · simp [after_not_script]
    · simp only []
      by_cases hh : (split argv).2 = [] ∧ a ∉ noHelp
      · rw [if_pos hh]
        simp only [help_not_script, false_iff]
        rintro ⟨e, hne, -⟩
        exact hne (e ▸ hh.1)
      · rw [if_neg hh]
        by_cases hc : a ∈ commands.map Prod.fst
        · rw [if_pos hc]
          simp only [after_not_script, false_iff]
          rintro ⟨-, -, e, hn, -⟩
          obtain rfl : a = n := by simpa using e
          exact hn hc
        · rw [if_neg hc]
          have hu : (split argv).2 ≠ [] := fun e => hh ⟨e, fun m => hc (noHelp_sub a m)⟩
          cases hg : given argv with
          | nil => simp
          | cons f r =>
            by_cases hf : isFile f = true
            · simp only [hf, if_true]
              constructor
              · intro e
                cases e
                exact ⟨rfl, hu, rfl, hc, f, rfl, hf⟩
              · rintro ⟨e, -, e2, -⟩
                obtain rfl : a = n := by simpa using e2
                rw [e]
            · simp only [hf, Bool.false_eq_true, if_false, after_not_script, false_iff]
              rintro ⟨-, -, -, -, f', e, hf'⟩
              obtain rfl : f = f' := by simpa using e
              exact hf hf'
    · simp [after_not_script]

/-- A script without arguments for it is refused as an invalid choice, although it is a file. -/
theorem script_alone_violated (isFile : String → Bool) (parse : List String → Parsed) (prog f : String)
    (h1 : dash f = false) (h2 : f ∉ commands.map Prod.fst) (hp : prog ≠ "--") :
    dispatch isFile parse [prog, f] = .exit 2 := by
  have hf : f ≠ "--" := by rintro rfl; exact absurd h1 (by decide)
  have hh : f ≠ "-h" := by rintro rfl; exact absurd h1 (by decide)
  have hs : split [prog, f] = ([prog, f], []) := by simp [split, hp.symm, hf.symm]
  have hw : words [prog, f] = [f] := by simp [words, hs, h1]
  rw [dispatch_eq, if_neg (by simp [hw]), hw]
  simp only [hs]
  rw [if_pos ⟨trivial, fun m => h2 (noHelp_sub f m)⟩, help, if_neg (by simp [hh]; simpa using h2)]

example : dispatch (fun _ => true) (fun _ => .exit 2) ["aviary", "run.py"] = .exit 2 :=
  script_alone_violated _ _ _ _ (by decide) (by decide) (by decide)

example : dispatch (fun _ => true) (fun _ => .exit 2) ["aviary", "run.py", "--", "x"] = .script "run.py" ["x"] :=
  (dispatch_script_iff _ _ _ _ _).2 ⟨by decide, by decide, by decide, by decide, "run.py", by decide, rfl⟩

/-- The program stops with an `IndexError` exactly when only `-h` or nothing stands before `--` and something stands after it. -/
theorem dispatch_index_iff (isFile : String → Bool) (parse : List String → Parsed) (argv : List String) :
    dispatch isFile parse argv = .indexError ↔ (split argv).2 ≠ [] ∧ ∀ a ∈ (split argv).1.drop 1, a = "-h" := by
  have hg : given argv = [] ↔ ∀ a ∈ (split argv).1.drop 1, a = "-h" := by
    simp [given, List.filter_eq_nil_iff]
  have hw : given argv = [] → words argv = [] := by
    intro h
    rw [words, List.filter_eq_nil_iff]
    intro a ha
    rw [hg.1 h a ha]
    decide
  rw [← hg, dispatch_eq]
  by_cases h0 : given argv = []
  · rw [if_pos ⟨hw h0, h0⟩]
    have h1 : ¬ "-h" ∈ commands.map Prod.fst := by decide
    have h2 : "-h" ∉ noHelp := by decide
    by_cases hu : (split argv).2 = []
    · simp [hu, h2, help_not_index]
    · simp [hu, h0]
      intro x hx
      exact absurd (List.mem_map_of_mem (f := Prod.fst) hx) h1
  · simp only [h0, and_false, if_false, iff_false]
    rcases words argv with _ | ⟨a, _ | ⟨b, r⟩⟩
    · exact after_not_index _ _
    · simp only []
      split_ifs
      · exact help_not_index _
      · exact after_not_index _ _
      · cases hgg : given argv with
        | nil => exact absurd hgg h0
        | cons f r => simp only []; split_ifs <;> simp [after_not_index]
    · exact after_not_index _ _

/-- The request for help is not met when arguments for a script follow. -/
theorem help_index_violated (isFile : String → Bool) (parse : List String → Parsed) (x : String) (l : List String) :
    dispatch isFile parse ("aviary" :: "-h" :: "--" :: x :: l) = .indexError := by
  have hs : split ("aviary" :: "-h" :: "--" :: x :: l) = (["aviary", "-h"], x :: l) := by
    simp [split]
  rw [dispatch_index_iff, hs]
  simp

/-- Without words and options, or with `-h` alone, the help is shown. -/
theorem dispatch_help (isFile : String → Bool) (parse : List String → Parsed) (argv : List String) (hu : (split argv).2 = [])
    (h : ∀ a ∈ (split argv).1.drop 1, a = "-h") : dispatch isFile parse argv = .exit 0 := by
  have hg : given argv = [] := by simpa [given, List.filter_eq_nil_iff] using h
  have hw : words argv = [] := by
    rw [words, List.filter_eq_nil_iff]; intro a ha; rw [h a ha]; decide
  have h2 : "-h" ∉ noHelp := by decide
  rw [dispatch_eq, if_pos ⟨hw, hg⟩]
  simp [hu, h2, help]

example : dispatch (fun _ => false) (fun _ => .exit 2) ["aviary"] = .exit 0 := dispatch_help _ _ _ (by decide) (by decide)

/-- The commands that are helped when they stand alone. -/
theorem dispatch_alone (isFile : String → Bool) (parse : List String → Parsed) (argv : List String) (a : String)
    (hu : (split argv).2 = []) (hw : words argv = [a]) (ha : a ∈ commands.map Prod.fst) :
    dispatch isFile parse argv =
      if a = "dashboard" ∨ a = "rtplot" then .exit 0 else after [] (parse ((split argv).1.drop 1)) := by
  rw [dispatch_eq, if_neg (by simp [hw]), hw]
  simp only [hu]
  by_cases hd : a = "dashboard" ∨ a = "rtplot"
  · have hn : a ∉ noHelp := by rcases hd with e | e <;> subst e <;> decide
    rw [if_pos ⟨trivial, hn⟩, if_pos hd, help, if_pos (Or.inr ha)]
  · have hn : a ∈ noHelp := by
      simp only [commands, List.map_cons, List.map_nil, List.mem_cons, List.not_mem_nil, or_false] at ha
      push Not at hd
      simp only [noHelp, List.mem_cons, List.not_mem_nil, or_false]
      rcases ha with e | e | e | e | e | e | e
      · exact Or.inl e
      · exact Or.inr (Or.inr (Or.inr (Or.inr e)))
      · exact Or.inr (Or.inr (Or.inl e))
      · exact Or.inr (Or.inl e)
      · exact absurd e hd.1
      · exact Or.inr (Or.inr (Or.inr (Or.inl e)))
      · exact absurd e hd.2
    rw [if_neg (fun h => h.2 hn), if_pos ha, if_neg hd]

example : dispatch (fun _ => true) (fun _ => .exit 2) ["aviary", "dashboard", "--save"] = .exit 0 := by
  rw [dispatch_alone _ _ _ "dashboard" (by decide) (by decide) (by decide)]; simp

/-- A function is called only after the arguments were parsed without rest, and it gets what follows `--`. -/
theorem dispatch_call (isFile : String → Bool) (parse : List String → Parsed) (argv : List String) (e : Ex) (us : List String)
    (h : dispatch isFile parse argv = .call e us) :
    parse ((split argv).1.drop 1) = .ok false [] (some e) ∧ us = (split argv).2 := by
  have key : after (split argv).2 (parse ((split argv).1.drop 1)) = .call e us →
      parse ((split argv).1.drop 1) = .ok false [] (some e) ∧ us = (split argv).2 := by
    generalize parse ((split argv).1.drop 1) = q
    generalize (split argv).2 = u
    intro h
    cases q with
    | exit n => simp [after] at h
    | ok v un x => cases v <;> cases un <;> cases x <;> simp_all [after]
  have hh : ∀ a, help a ≠ .call e us := by intro a; unfold help; split <;> simp
  rw [dispatch_eq] at h
  generalize hargs : (if words argv = [] ∧ given argv = [] then ["-h"] else words argv) = args at h
  rcases args with _ | ⟨a, _ | ⟨b, r⟩⟩
  · exact key h
  · simp only [] at h
    split_ifs at h
    · exact absurd h (hh a)
    · exact key h
    · cases hgg : given argv with
      | nil => rw [hgg] at h; cases h
      | cons f r =>
        rw [hgg] at h
        simp only [] at h
        split_ifs at h
        exact key h
  · exact key h

/-- With two words or more the parser decides. -/
theorem dispatch_parsed (isFile : String → Bool) (parse : List String → Parsed) (argv : List String) (h : 2 ≤ (words argv).length) :
    dispatch isFile parse argv = after (split argv).2 (parse ((split argv).1.drop 1)) := by
  rw [dispatch_eq, if_neg (by rintro ⟨e, -⟩; rw [e] at h; simp at h)]
  rcases hw : words argv with _ | ⟨a, _ | ⟨b, r⟩⟩
  · rfl
  · rw [hw] at h; simp at h
  · rfl

/-- What follows the parser: unknown arguments end with code 2 unless the version was asked for. -/
theorem after_spec (u : List String) (un : List String) (x : Option Ex) :
    after u (.ok true un x) = .version ∧ (un ≠ [] → after u (.ok false un x) = .exit 2) ∧
      (∀ e, after u (.ok false [] (some e)) = .call e u) ∧ after u (.ok false [] none) = .nothing := by
  refine ⟨rfl, fun h => ?_, fun _ => rfl, rfl⟩
  cases un with
  | nil => exact absurd rfl h
  | cons a r => cases x <;> rfl

/-! ## `aviary convert` -/

theorem lookup_mem {l : List (String × Ex)} {c : String} {e : Ex} (h : l.lookup c = some e) : (c, e) ∈ l := by
  induction l with
  | nil => simp at h
  | cons p r ih =>
    obtain ⟨k, x⟩ := p
    rw [List.lookup_cons] at h
    by_cases hk : c = k
    · subst hk
      simp only [beq_self_eq_true] at h
      cases h
      exact List.mem_cons_self
    · rw [beq_eq_false_iff_ne.2 hk] at h
      exact List.mem_cons_of_mem _ (ih h)

theorem executorOf_convert_iff (c : String) (w : Option String) : executorOf c w = some .convert ↔ c = "convert" ∧ w = none := by
  constructor
  · intro h
    unfold executorOf at h
    cases hc : commands.lookup c with
    | none => rw [hc] at h; cases h
    | some e =>
      rw [hc] at h
      have hm := lookup_mem hc
      by_cases he : e = .convert
      · subst he
        have : c = "convert" := by simpa [commands] using hm
        refine ⟨this, ?_⟩
        cases w with
        | none => rfl
        | some w => exact absurd (lookup_mem h) (by simp [conversions])
      · cases e <;> first | exact absurd rfl he | exact absurd h (by simp)
  · rintro ⟨rfl, rfl⟩; rfl

/-- Every command but `convert` alone comes to its own function at once. -/
theorem convert_partial (c : String) (w : Option String) (e : Ex) (h : executorOf c w = some e) (hn : ¬(c = "convert" ∧ w = none))
    (n : ℕ) : run (some e) (n + 1) e = some (.done e) := by
  have : e ≠ .convert := by rintro rfl; exact hn ((executorOf_convert_iff c w).1 h)
  cases e <;> first | exact absurd rfl this | rfl

example : run (executorOf "convert" (some "engine_deck")) 1 .engineDeck = some (.done .engineDeck) :=
  convert_partial "convert" (some "engine_deck") .engineDeck (by decide) (by decide) 0

/-- `aviary convert` alone calls itself without end. -/
theorem convert_alone_violated (n : ℕ) : executorOf "convert" none = some .convert ∧ run (some .convert) n .convert = none := by
  refine ⟨rfl, ?_⟩
  induction n with
  | zero => rfl
  | succ n ih => exact ih

/-- The message about a missing type of data is never reached. -/
theorem convert_message_unreachable (c : String) (w : Option String) (e : Ex) (h : executorOf c w = some e) (n : ℕ) :
    run (executorOf c w) n e ≠ some (.exit 1) := by
  rw [h]
  by_cases hn : c = "convert" ∧ w = none
  · obtain rfl : e = .convert := by
      rw [(executorOf_convert_iff c w).2 hn] at h; cases h; rfl
    rw [(convert_alone_violated n).2]; simp
  · cases n with
    | zero => simp [run]
    | succ n => rw [convert_partial c w e h hn]; simp

/-- The types of data, and nothing else. -/
theorem conversions_spec (w : String) (e : Ex) :
    executorOf "convert" (some w) = some e ↔
      (w = "aero_table" ∧ e = .aeroTable) ∨ (w = "engine_deck" ∧ e = .engineDeck) ∨ (w = "fortran_to_aviary" ∧ e = .fortran) ∨
        (w = "propeller_table" ∧ e = .propeller) := by
  have h0 : executorOf "convert" (some w) = conversions.lookup w := rfl
  rw [h0]
  constructor
  · intro h
    simpa [conversions] using lookup_mem h
  · rintro (⟨rfl, rfl⟩ | ⟨rfl, rfl⟩ | ⟨rfl, rfl⟩ | ⟨rfl, rfl⟩) <;> rfl

/-- The commands besides `convert`. -/
theorem commands_spec (c : String) (w : Option String) (e : Ex) (hc : c ≠ "convert") :
    executorOf c w = some e ↔
      (c = "check" ∧ e = .check) ∨ (c = "run_mission" ∧ e = .runMission) ∨ (c = "draw_mission" ∧ e = .drawMission) ∨
        (c = "dashboard" ∧ e = .dashboard) ∨ (c = "plot_drag_polar" ∧ e = .plotDragPolar) ∨ (c = "rtplot" ∧ e = .rtplot) := by
  constructor
  · intro h
    unfold executorOf at h
    cases hl : commands.lookup c with
    | none => rw [hl] at h; cases h
    | some x =>
      rw [hl] at h
      have hm := lookup_mem hl
      by_cases hx : x = .convert
      · subst hx
        exact absurd (by simpa [commands] using hm) hc
      · obtain rfl : x = e := by
          cases x <;> first | exact absurd rfl hx | exact Option.some.inj h
        simp only [commands, List.mem_cons, Prod.mk.injEq, List.not_mem_nil, or_false] at hm
        tauto
  · rintro (⟨rfl, rfl⟩ | ⟨rfl, rfl⟩ | ⟨rfl, rfl⟩ | ⟨rfl, rfl⟩ | ⟨rfl, rfl⟩ | ⟨rfl, rfl⟩) <;> rfl

/-! ## `aviary run_mission` -/

/-- Allowed options give a run, with the optimizer of that name or none, unless the file of phases cannot be read. -/
theorem execRun_allowed {P : Type} (load : String → Except Err P) (a : RunArgs) (h : a.Allowed)
    (hl : ∀ f, a.phaseInfo = some f → ∃ p, load f = .ok p) :
    ∃ r, execRun load a = .ok r ∧ a.deck = [r.deck] ∧ r.verbosity.toInt = a.verbosity ∧ r.maxIter = a.maxIter ∧ r.rtplot = a.rtplot ∧
      (r.optimizer = none ↔ a.optimizer = "None") ∧ (∀ o, r.optimizer = some o → o = a.optimizer ∧ o ∈ ["SNOPT", "IPOPT", "SLSQP"]) ∧
      (r.phaseInfo = none ↔ a.phaseInfo = none) ∧ ∀ f, a.phaseInfo = some f → ∃ p, r.phaseInfo = some p ∧ load f = .ok p := by
  obtain ⟨deck, opt, ph, mi, vb, rt⟩ := a
  obtain ⟨h1, h2, h3⟩ := h
  obtain ⟨d, rfl⟩ := List.length_eq_one_iff.1 h1
  obtain ⟨v, hv, hv'⟩ : ∃ v, Verb.ofInt vb = .ok v ∧ v.toInt = vb := by
    simp only [List.mem_cons, List.not_mem_nil, or_false] at h3
    rcases h3 with rfl | rfl | rfl | rfl
    · exact ⟨.quiet, rfl, rfl⟩
    · exact ⟨.brief, rfl, rfl⟩
    · exact ⟨.verbose, rfl, rfl⟩
    · exact ⟨.debug, rfl, rfl⟩
  have ho : ∀ o, (if opt = "None" then none else some opt) = some o → o = opt ∧ o ∈ ["SNOPT", "IPOPT", "SLSQP"] := by
    intro o e
    split_ifs at e with hN
    cases e
    refine ⟨rfl, ?_⟩
    simp only [List.mem_cons, List.not_mem_nil, or_false] at h2 ⊢
    rcases h2 with e | e | e | e
    · exact Or.inl e
    · exact Or.inr (Or.inl e)
    · exact Or.inr (Or.inr e)
    · exact absurd e hN
  have ho' : ((if opt = "None" then none else some opt : Option String) = none ↔ opt = "None") := by split_ifs <;> simp_all
  cases ph with
  | none =>
    refine ⟨⟨d, if opt = "None" then none else some opt, none, mi, v, rt⟩, by simp [execRun, hv], rfl, hv', rfl, rfl, ho', ho, by simp, ?_⟩
    intro f e; cases e
  | some f =>
    obtain ⟨p, hp⟩ := hl f rfl
    refine ⟨⟨d, if opt = "None" then none else some opt, some p, mi, v, rt⟩, by simp [execRun, hv, hp], rfl, hv', rfl, rfl, ho', ho, by simp, ?_⟩
    intro f' e; cases e; exact ⟨p, rfl, hp⟩

example : (⟨["a.csv"], "None", some "p.py", 50, 1, false⟩ : RunArgs).Allowed := by simp [RunArgs.Allowed]

/-! ## The steps -/

theorem levelAfter_spec (own : Option Verb) (c : Option ℤ) (v : Verb) :
    levelAfter own c = .ok v ↔ (∃ i, c = some i ∧ v.toInt = i) ∨ (c = none ∧ v = own.getD .brief) := by
  cases c with
  | none => simp [levelAfter, overrideVerbosity, eq_comm]
  | some i =>
    simp only [levelAfter, overrideVerbosity, Option.some.injEq, exists_eq_left', reduceCtorEq, false_and, or_false]
    by_cases h : 0 ≤ i ∧ i ≤ 3
    · have : i = 0 ∨ i = 1 ∨ i = 2 ∨ i = 3 := by omega
      rcases this with rfl | rfl | rfl | rfl <;> cases v <;> simp [Verb.ofInt, Verb.toInt, Except.map]
    · have hE : Verb.ofInt i = .error .valueError := by
        unfold Verb.ofInt
        split <;> first | omega | rfl
      rw [hE]
      simp only [Except.map, reduceCtorEq, false_iff]
      rintro rfl
      cases v <;> simp [Verb.toInt] at h

/-- The level given for loading the inputs is not only that of this call: the problem keeps it instead of its own. -/
theorem level_stays_violated : levelAfter (some .debug) (some 0) = .ok .quiet := rfl

/-- The subsystems that can be loaded without complaint. -/
def Proper (l : List Ext) : Prop := ∀ e ∈ l, (∃ n, e = .engine n) ∨ ∃ n, e = .builder n

theorem load_proper_ok (v : Option Verb) (l : List Ext) (h : Proper l) (s : Loaded) :
    ∃ s', loadExternals v l s = (s', none) ∧ s'.engines = s.engines ++ (l.filter (fun e => match e with | .engine _ => true | _ => false)).map Ext.name ∧
      s'.externals = s.externals ++ (l.filter (fun e => match e with | .engine _ => false | _ => true)).map Ext.name ∧
      s'.metas = s.metas ++ l.map Ext.name := by
  induction l generalizing s with
  | nil => exact ⟨s, rfl, by simp, by simp, by simp⟩
  | cons e r ih =>
    have hr : Proper r := fun x hx => h x (List.mem_cons_of_mem _ hx)
    rcases h e List.mem_cons_self with ⟨n, rfl⟩ | ⟨n, rfl⟩
    · obtain ⟨s', h1, h2, h3, h4⟩ := ih hr { s with engines := s.engines ++ [n], metas := s.metas ++ [n] }
      exact ⟨s', by simpa [loadExternals, loadStep, loadOne] using h1, by simpa [Ext.name] using h2, by simpa [Ext.name] using h3,
        by simpa [Ext.name] using h4⟩
    · obtain ⟨s', h1, h2, h3, h4⟩ := ih hr { s with externals := s.externals ++ [n], metas := s.metas ++ [n] }
      exact ⟨s', by simpa [loadExternals, loadStep, loadOne] using h1, by simpa [Ext.name] using h2, by simpa [Ext.name] using h3,
        by simpa [Ext.name] using h4⟩

theorem common_single (p : Prob) (t : PType) (ht : t ≠ .multiMission) (hp : p.ptype = some t) (v : Option ℤ) (w : Option Verb)
    (hv : overrideVerbosity p.verb v = .ok w) :
    ∃ q, common p v = .ok q ∧ q.ptype = some t ∧ q.verb = p.verb ∧ q.payload = p.payload ∧ q.model.subsystems = core ++ p.model.loaded.externals ∧
      q.model.loaded.engines = (if p.model.loaded.engines = [] then ["engine_deck"] else p.model.loaded.engines) ∧
      q.model.loaded.metas = p.metas ∧
      q.model.steps = p.model.steps ++ [(.preprocess, w), (.preMission, w), (.phases, w), (.postMission, w), (.link, w), (.designVars, w)] := by
  obtain ⟨pt, md, gs, vb, ms, pl⟩ := p
  subst hp
  simp only at hv
  have hne : (some t : Option PType) ≠ some .multiMission := by simpa using ht
  refine ⟨(Prob.mk (some t) ((((((md.make .preprocess w).make .preMission w).make .phases w).make .postMission w).make .link w).make
    .designVars w) gs vb ms pl).setupMeta, ?_, ?_, ?_, ?_, ?_, ?_, ?_, ?_⟩
  · simp only [common, Prob.step, Prob.addPhases, hv, hne, if_false, false_and]
  all_goals simp [Prob.setupMeta, ht, Grp.make, preprocess]

/-- A run makes all the steps once, in their order and with one level: that of the call, else BRIEF. The subsystems that were given come
after those of the core, and the engine deck is used when no engine model was given. -/
theorem runAviary_ok (v : Option ℤ) (lv : Verb) (hv : levelAfter none v = .ok lv) (l : List Ext) (hl : Proper l) (t : PType)
    (ht : t ≠ .multiMission) (pay : Option Bool) :
    ∃ p, runAviary v l t pay = .ok p ∧ p.ptype = some t ∧ p.verb = some lv ∧ p.payload = pay.getD false ∧
      p.model.steps = [(.preprocess, some lv), (.preMission, some lv), (.phases, some lv), (.postMission, some lv), (.link, some lv),
        (.designVars, some lv)] ∧
      p.model.subsystems = core ++ (l.filter (fun e => match e with | .engine _ => false | _ => true)).map Ext.name ∧
      (p.model.loaded.engines = ["engine_deck"] ∧ (∀ e ∈ l, ∃ n, e = .builder n) ∨
        p.model.loaded.engines ≠ [] ∧ p.model.loaded.engines = (l.filter (fun e => match e with | .engine _ => true | _ => false)).map Ext.name) := by
  obtain ⟨own, ho, hlv, hown⟩ : ∃ own, overrideVerbosity none v = .ok own ∧ levelAfter own v = .ok lv ∧
      overrideVerbosity (some lv) v = .ok (some lv) := by
    cases v with
    | none =>
      refine ⟨none, rfl, hv, rfl⟩
    | some i =>
      simp only [levelAfter, overrideVerbosity] at hv ⊢
      cases hi : Verb.ofInt i with
      | error e => rw [hi] at hv; cases hv
      | ok w => rw [hi] at hv; simp only [Except.map, Option.getD_some, Except.ok.injEq] at hv; subst hv
                exact ⟨some w, rfl, rfl, rfl⟩
  have hne : (some t : Option PType) ≠ some .multiMission := by simpa using ht
  let p0 : Prob := (Prob.new none own).loadInputs t lv pay
  obtain ⟨s', h1, h2, h3, h4⟩ := load_proper_ok (some lv) l hl p0.model.loaded
  have hp0 : p0.ptype = some t := rfl
  have hb : p0.verb = some lv := rfl
  have hload : p0.loadExternal l v = .ok { p0 with model := { p0.model with loaded := s' }, metas := p0.metas ++ s'.metas } := by
    simp only [Prob.loadExternal, hb, hown, hp0, hne, if_false, h1]
  obtain ⟨q, hq, q1, q2, q3, q4, q5, q6, q7⟩ := common_single
    { p0 with model := { p0.model with loaded := s' }, metas := p0.metas ++ s'.metas } t ht hp0 v (some lv) hown
  refine ⟨q, ?_, q1, q2, q3, ?_, ?_, ?_⟩
  · simp only [runAviary, ho, hlv]
    rw [show ((Prob.new none own).loadInputs t lv pay).loadExternal l v = _ from hload]
    exact hq
  · simpa [p0, Prob.loadInputs, Prob.new, Grp.new] using q7
  · rw [q4]
    simp only [h3]
    simp [p0, Prob.loadInputs, Prob.new, Grp.new]
  · simp only at q5
    have he : s'.engines = (l.filter (fun e => match e with | .engine _ => true | _ => false)).map Ext.name := by
      rw [h2]; simp [p0, Prob.loadInputs, Prob.new, Grp.new]
    by_cases hs : s'.engines = []
    · left
      rw [if_pos hs] at q5
      refine ⟨q5, fun e hm => ?_⟩
      rcases hl e hm with ⟨n, rfl⟩ | hb
      · rw [he, List.map_eq_nil_iff, List.filter_eq_nil_iff] at hs
        exact absurd trivial (by simpa using hs _ hm)
      · exact hb
    · right
      rw [if_neg hs] at q5
      exact ⟨q5 ▸ hs, q5.trans he⟩

example : ∃ p, runAviary none [.builder "battery", .engine "e"] .sizing none = .ok p ∧ p.verb = some .brief ∧
    p.model.subsystems = core ++ ["battery"] ∧ p.model.loaded.engines = ["e"] := ⟨_, rfl, rfl, rfl, rfl⟩

/-- A deck that asks for several missions cannot be run: there is no group to load the subsystems into. -/
theorem runAviary_multi_violated (v : Option ℤ) (lv : Verb) (hv : levelAfter none v = .ok lv) (l : List Ext) (pay : Option Bool) :
    runAviary v l .multiMission pay = .error .unboundLocal := by
  cases v with
  | none => rfl
  | some i =>
    simp only [levelAfter, overrideVerbosity] at hv
    cases hi : Verb.ofInt i with
    | error e => rw [hi] at hv; cases hv
    | ok w => simp [runAviary, overrideVerbosity, levelAfter, hi, Except.map, Prob.loadExternal, Prob.loadInputs, Prob.new, loadAll]

/-- A reloaded problem is what a run without further subsystems would set up. -/
theorem reload_eq (v : ℤ) (t : PType) (ht : t ≠ .multiMission) (pay : Option Bool) : reload v t pay = runAviary (some v) [] t pay := by
  have hne : (some t : Option PType) ≠ some .multiMission := by simpa using ht
  cases hi : Verb.ofInt v with
  | error e => simp [reload, runAviary, levelAfter, overrideVerbosity, hi, Except.map]
  | ok w =>
    simp [reload, runAviary, levelAfter, overrideVerbosity, hi, Except.map, Prob.loadExternal, Prob.loadInputs, Prob.new, loadExternals, ht, Grp.new]

/-- The subsystems of the sized problem are not in the reloaded one. -/
theorem reload_core_violated (v : ℤ) (lv : Verb) (hv : levelAfter none (some v) = .ok lv) (t : PType) (ht : t ≠ .multiMission)
    (pay : Option Bool) : ∃ p, reload v t pay = .ok p ∧ p.model.subsystems = core ∧ p.model.loaded.engines = ["engine_deck"] := by
  obtain ⟨p, h, -, -, -, -, h5, h6⟩ := runAviary_ok (some v) lv hv [] (by simp [Proper]) t ht pay
  refine ⟨p, by rw [reload_eq v t ht]; exact h, by simpa using h5, ?_⟩
  rcases h6 with h6 | h6
  · exact h6.1
  · exact absurd h6.2 (by simpa using h6.1)

/-! ## The dashboard -/

/-- The name is missing exactly when no script and no name to save under was given; the exception is then a `TypeError` of its own
making. -/
theorem dashboard_missing_violated (isZip isDir : String → Bool) (stem : String → String) (force : Bool) (script : List String)
    (save : Save) :
    dashboardCmd isZip isDir stem force script save = .typeError ↔ script = [] ∧ ∀ s, save = .named s → s = "" := by
  have key : dashboardCmd isZip isDir stem force script save = .typeError ↔ (nameOf script save).1 = [] := by
    unfold dashboardCmd
    rcases nameOf script save with ⟨_ | ⟨n, r⟩, sv⟩
    · simp
    · simp only [List.cons_ne_nil, iff_false]
      by_cases hz : isZip n = true
      · rw [if_pos hz]; split_ifs <;> simp
      · rw [if_neg hz]; cases sv <;> simp
  rw [key]
  cases script with
  | cons a r => simp [nameOf]
  | nil => cases save with
    | no => simp [nameOf, Save.truth]
    | yes => simp [nameOf, Save.truth]
    | named s => by_cases hs : s = "" <;> simp [nameOf, Save.truth, hs]

/-- A directory is removed only for a zip file and with `--force`, and without `--force` an existing one stops the command. -/
theorem dashboard_zip (isZip isDir : String → Bool) (stem : String → String) (force : Bool) (n : String) (r : List String) (save : Save)
    (hz : isZip n = true) :
    dashboardCmd isZip isDir stem force (n :: r) save =
      if isDir (stem n ++ "_out") then (if force then .unpacked (stem n) true else .runtimeError) else .unpacked (stem n) false := by
  have : nameOf (n :: r) save = (n :: r, save) := by simp [nameOf]
  simp only [dashboardCmd, this, hz, if_true]
  cases hd : isDir (stem n ++ "_out") <;> cases force <;> simp

/-- Without a zip file the results are archived when `--save` is given and shown otherwise; the archive is that of the named script. -/
theorem dashboard_script (isZip isDir : String → Bool) (stem : String → String) (force : Bool) (n : String) (r : List String) (save : Save)
    (hz : isZip n = false) :
    dashboardCmd isZip isDir stem force (n :: r) save = match save with
      | .no => .shown n
      | .yes => .saved n (n ++ "_out")
      | .named s => .saved (stem s) (n ++ "_out") := by
  have : nameOf (n :: r) save = (n :: r, save) := by simp [nameOf]
  cases save <;> simp [dashboardCmd, this, hz]

/-- A name after `--save` and no script: the results of that name are saved under it. -/
theorem dashboard_save_only (isZip isDir : String → Bool) (stem : String → String) (force : Bool) (s : String) (hs : s ≠ "")
    (hz : isZip s = false) : dashboardCmd isZip isDir stem force [] (.named s) = .saved s (s ++ "_out") := by
  have : nameOf [] (.named s) = ([s], .yes) := by simp [nameOf, Save.truth, hs]
  simp [dashboardCmd, this, hz]

example : dashboardCmd (fun _ => false) (fun _ => true) id false [] (.named "run") = .saved "run" "run_out" :=
  dashboard_save_only _ _ _ _ _ (by decide) rfl

/-! ## The check of the installation -/

/-- The optimizer of the trial run is the best that is there. -/
theorem optimizer_choice (m : Machine) :
    m.optimizers.getLastD "SLSQP" =
      if m.pyoptsparse ∧ m.snopt then "SNOPT" else if m.pyoptsparse ∧ m.ipopt then "IPOPT" else "SLSQP" := by
  unfold Machine.optimizers
  cases m.pyoptsparse <;> cases m.ipopt <;> cases m.snopt <;> rfl

/-- The check succeeds exactly when both packages load and the trial run with the chosen optimizer succeeds. -/
theorem check_iff (m : Machine) :
    m.check = true ↔ m.openmdao = true ∧ m.api = true ∧
      m.run (if m.pyoptsparse ∧ m.snopt then "SNOPT" else if m.pyoptsparse ∧ m.ipopt then "IPOPT" else "SLSQP") = some true := by
  rw [← optimizer_choice]
  unfold Machine.check
  generalize m.run (m.optimizers.getLastD "SLSQP") = q
  cases m.openmdao <;> cases m.api <;> cases q <;> simp

/-- The command line does not tell a failed check from a good one. -/
theorem check_exit_violated (m : Machine) (h : m.openmdao = false) : m.check = false ∧ m.exitCode = 0 := by
  simp [Machine.check, Machine.exitCode, h]

example : (⟨false, true, true, true, true, fun _ => none⟩ : Machine).exitCode = 0 := (check_exit_violated _ rfl).2

example : (⟨true, true, true, false, true, fun o => some (o == "IPOPT")⟩ : Machine).check = true := by
  rw [check_iff]; exact ⟨rfl, rfl, by simp⟩

end Verif.CommandLine
