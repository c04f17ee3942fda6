import Verif.Model.Objective
import Verif.Props.Phases
import Verif.Props.CrewPayload
import Mathlib.Algebra.BigOperators.Group.List.Basic
import Mathlib.Algebra.BigOperators.Ring.List
import Mathlib.Algebra.Order.BigOperators.Group.List
import Mathlib.Algebra.Order.Field.Basic
import Mathlib.Algebra.Order.Floor.Ring
import Mathlib.Tactic.Linarith
import Mathlib.Tactic.FieldSimp
import Mathlib.Tactic.Ring
import Mathlib.Tactic.Positivity

/-!
# Properties of objectives and payload-range analysis (C78 to C81)
-/

namespace Verif.Objective

/-! ## C78 The objective of the optimizer -/

/-- The objective is refused exactly for an unknown name, or without a name in a multi-mission problem. -/
theorem addObjective_total (problem : ProblemType) (type : Option String) (ref : Option ℚ) :
    addObjective problem type ref = .error .valueError ↔
      (∃ t, type = some t ∧ t ∉ ["mass", "time", "hybrid_objective", "fuel_burned", "fuel"]) ∨
      (type = none ∧ problem = .multiMission) := by
  cases type with
  | none => cases problem <;> simp [addObjective]
  | some t =>
    simp only [addObjective, reduceCtorEq, false_and, or_false]
    constructor
    · intro h
      refine ⟨t, rfl, ?_⟩
      split_ifs at h
      simp_all
    · rintro ⟨t', ht, hn⟩
      cases ht
      simp only [List.mem_cons, List.not_mem_nil, or_false, not_or] at hn
      simp [hn]

/-- There is no other error. -/
theorem addObjective_errors {problem : ProblemType} {type : Option String} {ref : Option ℚ} {e : Err}
    (h : addObjective problem type ref = .error e) : e = .valueError := by
  unfold addObjective at h
  cases type with
  | none => cases problem <;> simp_all
  | some t =>
    simp only at h
    split_ifs at h
    cases h; rfl

/-- A reference given by the user is handed on, except for the hybrid objective. -/
theorem addObjective_ref {problem : ProblemType} {type : Option String} {r : ℚ} {q : Quantity} {o : Option ℚ}
    (h : addObjective problem type (some r) = .ok (q, o)) : o = if q = .hybrid then none else some r := by
  unfold addObjective at h
  cases type with
  | none => cases problem <;> simp at h <;> obtain ⟨rfl, rfl⟩ := h <;> simp
  | some t =>
    simp only [Option.getD_some] at h
    split_ifs at h <;> simp at h <;> obtain ⟨rfl, rfl⟩ := h <;> simp

/-- Without a reference from the user the reference is positive. -/
theorem addObjective_default_pos {problem : ProblemType} {type : Option String} {q : Quantity} {r : ℚ}
    (h : addObjective problem type none = .ok (q, some r)) : 0 < r := by
  unfold addObjective at h
  cases type with
  | none => cases problem <;> simp at h <;> obtain ⟨_, rfl⟩ := h <;> norm_num
  | some t =>
    simp only [Option.getD_none] at h
    have : 0 < defaultRef t := by unfold defaultRef; split_ifs <;> norm_num
    split_ifs at h <;> simp at h <;> obtain ⟨_, rfl⟩ := h <;> exact this

/-- Without a name the objective follows the problem: fuel for sizing and minimal fuel, range for maximal range. -/
theorem addObjective_problem (problem : ProblemType) (ref : Option ℚ) :
    addObjective problem none ref = match problem with
      | .sizing => .ok (.fuelObjective, some (ref.getD 1))
      | .minFuel => .ok (.fuelObjective, some (ref.getD 1))
      | .maxRange => .ok (.rangeObjective, some (ref.getD 1))
      | .multiMission => .error .valueError := by
  cases problem <;> rfl

/-- With a positive reference the optimizer prefers less fuel at equal ascent duration, … -/
theorem fuelValue_prefers {f g : ℚ} (h : f < g) (ascent : ℚ) {r : ℚ} (hr : 0 < r) :
    scaled (fuelValue f ascent) (some r) < scaled (fuelValue g ascent) (some r) := by
  unfold scaled fuelValue
  have : f / 10000 + ascent / 30 < g / 10000 + ascent / 30 := by linarith
  exact (div_lt_div_iff_of_pos_right hr).mpr this

/-- … and more range. -/
theorem rangeValue_prefers {a b : ℚ} (h : a < b) (ascent : ℚ) {r : ℚ} (hr : 0 < r) :
    scaled (rangeValue b ascent) (some r) < scaled (rangeValue a ascent) (some r) := by
  unfold scaled rangeValue
  have : -b / 1000 + ascent / 30 < -a / 1000 + ascent / 30 := by linarith
  exact (div_lt_div_iff_of_pos_right hr).mpr this

example : scaled (fuelValue 20000 60) (some 1) < scaled (fuelValue 21000 60) (some 1) :=
  fuelValue_prefers (by norm_num) _ (by norm_num)

/-- The range objective changes its meaning with a negative reference, which the documentation asks for maximised values:
then the shorter mission is preferred. -/
theorem rangeValue_negative_ref_violated {a b : ℚ} (h : a < b) (ascent : ℚ) {r : ℚ} (hr : r < 0) :
    scaled (rangeValue a ascent) (some r) < scaled (rangeValue b ascent) (some r) := by
  unfold scaled rangeValue
  have : -b / 1000 + ascent / 30 < -a / 1000 + ascent / 30 := by linarith
  exact (div_lt_div_right_of_neg hr).mpr this

/-- The objective `mass` with its default reference prefers the lower mass at the end of the mission, that is more fuel
burned for the same take-off mass. -/
theorem mass_objective_violated (problem : ProblemType) : ∃ r, addObjective problem (some "mass") none = .ok (.finalMass, some r) ∧
    ∀ m m' : ℚ, m < m' → scaled m (some r) < scaled m' (some r) := by
  refine ⟨50000, by simp [addObjective, defaultRef], fun m m' h => ?_⟩
  exact (div_lt_div_iff_of_pos_right (by norm_num : (0 : ℚ) < 50000)).mpr h

/-- The same holds for the hybrid objective: at equal time it prefers the lower final mass, whatever the reference. -/
theorem hybrid_objective_violated (problem : ProblemType) (ref : Option ℚ) {takeoff : ℚ} (ht : 0 < takeoff) :
    ∃ r, addObjective problem (some "hybrid_objective") ref = .ok (.hybrid, r) ∧
    ∀ m m' t : ℚ, m < m' → scaled (hybridValue takeoff m t) r < scaled (hybridValue takeoff m' t) r := by
  refine ⟨none, by simp [addObjective], fun m m' t h => ?_⟩
  unfold scaled hybridValue
  have := (div_lt_div_iff_of_pos_right ht).mpr h
  linarith

/-- It prefers the shorter time at equal mass. -/
theorem hybridValue_time {takeoff m t t' : ℚ} (h : t < t') : hybridValue takeoff m t < hybridValue takeoff m t' := by
  unfold hybridValue; linarith

/-- Quantity and default reference of every named objective. -/
theorem addObjective_named (problem : ProblemType) (ref : Option ℚ) :
    addObjective problem (some "mass") ref = .ok (.finalMass, some (ref.getD 50000)) ∧
    addObjective problem (some "time") ref = .ok (.finalTime, some (ref.getD 1)) ∧
    addObjective problem (some "hybrid_objective") ref = .ok (.hybrid, none) ∧
    addObjective problem (some "fuel_burned") ref = .ok (.fuelMass, some (ref.getD 10000)) ∧
    addObjective problem (some "fuel") ref = .ok (.fuelObjective, some (ref.getD 10000)) := by
  refine ⟨?_, ?_, ?_, ?_, ?_⟩ <;> simp [addObjective, defaultRef]

/-- What the objectives trade: five hours against the take-off mass, ten thousand pounds of fuel or a thousand miles
against thirty seconds of ascent. -/
theorem objectives_trade {takeoff : ℚ} (ht : takeoff ≠ 0) (m t f r a : ℚ) :
    hybridValue takeoff (m + takeoff) t = hybridValue takeoff m (t + 5) ∧
    fuelValue (f + 10000) a = fuelValue f (a + 30) ∧ rangeValue (r + 1000) (a + 30) = rangeValue r a := by
  unfold hybridValue fuelValue rangeValue
  refine ⟨?_, by ring, by ring⟩
  rw [add_div, div_self ht]
  ring

/-- The objectives `mass` and `time` use the end of the last main phase. -/
theorem objectivePhase_spec {ps : List (String × PhaseTag)} {o : Option String} (h : objectivePhase ps = .ok o) :
    o = ((ps.filter fun p => IsMain p.2).map Prod.fst).getLast? := by
  unfold objectivePhase at h
  obtain ⟨_, h2, h3⟩ := separatePhases_spec ps
  rcases h3 with h3 | ⟨m, r, h3⟩
  · rw [h3] at h; cases h
  · rw [h3] at h
    cases h
    rw [(h2 m r h3).1]

/-- The hybrid objective uses the end of the last phase, which is the same without reserve phases … -/
theorem hybridPhase_partial {ps : List (String × PhaseTag)} (hp : ∀ p ∈ ps, IsMain p.2 = true) {o : Option String}
    (h : objectivePhase ps = .ok o) : hybridPhase ps = o := by
  rw [objectivePhase_spec h, List.filter_eq_self.mpr hp]
  rfl

/-- … and the end of the reserve flight with them. -/
theorem hybridPhase_reserve_violated : ∃ ps : List (String × PhaseTag), objectivePhase ps = .ok (some "descent") ∧
    hybridPhase ps = some "reserve_hold" :=
  ⟨[("climb", .noReserve), ("descent", .noReserve), ("reserve_hold", .reserveOther)], by decide +kernel, by decide +kernel⟩

/-! ## C79 Composite objectives -/

/-- Each argument stands for one model, output and weight: the model must be known if it is given, and a name alone must
not be that of a model. -/
theorem parseArg_ok {models : List String} {problem : ProblemType} {a : Arg} {m o : String} {w : ℚ} :
    parseArg models problem a = .ok (m, o, w) ↔
      (a = .triple m o w ∧ m ∈ models) ∨ (a = .pairText m o ∧ w = 1 ∧ m ∈ models) ∨
      (a = .pairNum o w ∧ m = "model" ∧ o ∉ models) ∨ (a = .text o ∧ w = 1 ∧ m = "model" ∧ o ∉ models) ∨
      (a = .other ∧ problem ≠ .multiMission ∧ m = "model" ∧ w = 1 ∧
        o = if problem = .maxRange then "mission:objectives:range" else "mission:objectives:fuel") := by
  cases a with
  | text s =>
    by_cases h : s ∈ models
    · simp only [parseArg, h, if_true, reduceCtorEq, false_and, Arg.text.injEq, false_or, or_false, false_iff]
      rintro ⟨rfl, _, _, h'⟩; exact h' h
    · simp only [parseArg, h, if_false, Except.ok.injEq, Prod.mk.injEq, reduceCtorEq, false_and, Arg.text.injEq, false_or,
        or_false]
      constructor
      · rintro ⟨rfl, rfl, rfl⟩; exact ⟨rfl, rfl, rfl, h⟩
      · rintro ⟨rfl, rfl, rfl, _⟩; exact ⟨rfl, rfl, rfl⟩
  | pairText a b =>
    by_cases h : a ∈ models
    · simp only [parseArg, h, if_true, Except.ok.injEq, Prod.mk.injEq, reduceCtorEq, false_and, Arg.pairText.injEq,
        false_or, or_false]
      constructor
      · rintro ⟨rfl, rfl, rfl⟩; exact ⟨⟨rfl, rfl⟩, rfl, h⟩
      · rintro ⟨⟨rfl, rfl⟩, rfl, _⟩; exact ⟨rfl, rfl, rfl⟩
    · simp only [parseArg, h, if_false, reduceCtorEq, false_and, Arg.pairText.injEq, false_or, or_false, false_iff]
      rintro ⟨⟨rfl, rfl⟩, _, h'⟩; exact h h'
  | pairNum a x =>
    by_cases h : a ∈ models
    · simp only [parseArg, h, if_true, reduceCtorEq, false_and, Arg.pairNum.injEq, false_or, or_false, false_iff]
      rintro ⟨⟨rfl, rfl⟩, _, h'⟩; exact h' h
    · simp only [parseArg, h, if_false, Except.ok.injEq, Prod.mk.injEq, reduceCtorEq, false_and, Arg.pairNum.injEq,
        false_or, or_false]
      constructor
      · rintro ⟨rfl, rfl, rfl⟩; exact ⟨⟨rfl, rfl⟩, rfl, h⟩
      · rintro ⟨⟨rfl, rfl⟩, rfl, _⟩; exact ⟨rfl, rfl, rfl⟩
  | pairOther => simp [parseArg]
  | triple a b x =>
    by_cases h : a ∈ models
    · simp only [parseArg, h, if_true, Except.ok.injEq, Prod.mk.injEq, reduceCtorEq, false_and, Arg.triple.injEq, or_false]
      constructor
      · rintro ⟨rfl, rfl, rfl⟩; exact ⟨⟨rfl, rfl, rfl⟩, h⟩
      · rintro ⟨⟨rfl, rfl, rfl⟩, _⟩; exact ⟨rfl, rfl, rfl⟩
    · simp only [parseArg, h, if_false, reduceCtorEq, false_and, Arg.triple.injEq, or_false, false_iff]
      rintro ⟨⟨rfl, rfl, rfl⟩, h'⟩; exact h h'
  | other =>
    cases problem <;> simp [parseArg, eq_comm, and_comm]

/-- The arguments are read one by one, in order. -/
theorem parseArgs_ok {models : List String} {problem : ProblemType} {args : List Arg} {xs : List (String × String × ℚ)} :
    parseArgs models problem args = .ok xs ↔ List.Forall₂ (fun a x => parseArg models problem a = .ok x) args xs := by
  induction args generalizing xs with
  | nil => simp [parseArgs, eq_comm]
  | cons a as ih =>
    unfold parseArgs
    cases ha : parseArg models problem a with
    | error e =>
      simp only [reduceCtorEq, false_iff]
      rintro (_ | ⟨h, _⟩)
      rw [ha] at h; cases h
    | ok x =>
      cases has : parseArgs models problem as with
      | error e =>
        simp only [reduceCtorEq, false_iff]
        rintro (_ | ⟨_, h⟩)
        rw [ih.mpr h] at has; cases has
      | ok ys =>
        simp only [Except.ok.injEq]
        constructor
        · rintro rfl
          exact .cons ha (ih.mp has)
        · rintro (_ | ⟨h, h'⟩)
          rw [ha] at h; cases h
          have := ih.mpr h'
          rw [has] at this; cases this
          rfl

theorem sum_map_div (l : List ℚ) (t : ℚ) : (l.map fun w => w / t).sum = l.sum / t := by
  induction l with
  | nil => simp
  | cons a l ih => simp [ih, add_div]

theorem terms_factor (objs : List (String × String × ℚ)) :
    (terms objs).map Term.factor = (objs.map (·.2.2)).map fun w => w / (objs.map (·.2.2)).sum := by
  simp [terms, Function.comp_def]

/-- The factors of the terms add up to one. -/
theorem terms_sum {objs : List (String × String × ℚ)} (h : (objs.map (·.2.2)).sum ≠ 0) :
    ((terms objs).map Term.factor).sum = 1 := by
  rw [terms_factor, sum_map_div, div_self h]

/-- The value of a sum of terms, given the value of every source. -/
def value (v : String → ℚ) (ts : List Term) : ℚ := (ts.map fun t => t.factor * v t.source).sum

/-- With weights that are not negative the objective lies between any two bounds of all its parts. -/
theorem value_mem {objs : List (String × String × ℚ)} (hn : ∀ x ∈ objs, 0 ≤ x.2.2) (h : (objs.map (·.2.2)).sum ≠ 0)
    {v : String → ℚ} {a b : ℚ} (hv : ∀ x ∈ objs, a ≤ v (x.1 ++ "." ++ x.2.1) ∧ v (x.1 ++ "." ++ x.2.1) ≤ b) :
    a ≤ value v (terms objs) ∧ value v (terms objs) ≤ b := by
  have hpos : 0 < (objs.map (·.2.2)).sum :=
    lt_of_le_of_ne (List.sum_nonneg (by simpa using fun c a b hx => hn (a, b, c) hx)) (Ne.symm h)
  have key : ∀ (l : List (String × String × ℚ)) (s : ℚ), 0 < s → (∀ x ∈ l, 0 ≤ x.2.2) →
      (∀ x ∈ l, a ≤ v (x.1 ++ "." ++ x.2.1) ∧ v (x.1 ++ "." ++ x.2.1) ≤ b) →
      a * ((l.map (·.2.2)).sum / s) ≤ (l.map fun x => x.2.2 / s * v (x.1 ++ "." ++ x.2.1)).sum ∧
      (l.map fun x => x.2.2 / s * v (x.1 ++ "." ++ x.2.1)).sum ≤ b * ((l.map (·.2.2)).sum / s) := by
    intro l s hs
    induction l with
    | nil => simp
    | cons x l ih =>
      intro h1 h2
      have hx := h2 x (by simp)
      have hw : 0 ≤ x.2.2 / s := div_nonneg (h1 x (by simp)) hs.le
      obtain ⟨i1, i2⟩ := ih (fun y hy => h1 y (by simp [hy])) (fun y hy => h2 y (by simp [hy]))
      simp only [List.map_cons, List.sum_cons, add_div, mul_add]
      have m1 := mul_le_mul_of_nonneg_left hx.1 hw
      have m2 := mul_le_mul_of_nonneg_left hx.2 hw
      constructor <;> nlinarith
  have := key objs _ hpos hn hv
  rw [div_self h, mul_one, mul_one] at this
  have e : value v (terms objs) = (objs.map fun x => x.2.2 / (objs.map (·.2.2)).sum * v (x.1 ++ "." ++ x.2.1)).sum := by
    simp [value, terms, Function.comp_def]
  rw [e]; exact this

/-- Only the ratios of the weights matter. -/
theorem terms_scale {objs : List (String × String × ℚ)} {k : ℚ} (hk : k ≠ 0) :
    terms (objs.map fun x => (x.1, x.2.1, k * x.2.2)) = terms objs := by
  have e : ((objs.map fun x => (x.1, x.2.1, k * x.2.2)).map (·.2.2)).sum = k * (objs.map (·.2.2)).sum := by
    rw [List.map_map]
    induction objs with
    | nil => simp
    | cons x l ih => simp only [List.map_cons, List.sum_cons, Function.comp_apply, ih, mul_add]
  unfold terms
  simp only [e]
  rw [List.map_map]
  refine List.map_congr_left fun x _ => ?_
  simp only [Function.comp_apply, Term.mk.injEq, true_and]
  rw [mul_div_mul_left _ _ hk]

/-- A composite objective is accepted exactly if every argument is, there is one, the weights do not cancel and the names
of the inputs differ; then its terms are those of the arguments. -/
theorem addComposite_ok {models : List String} {problem : ProblemType} {args : List Arg} {ref r : Option ℚ} {ts : List Term} :
    addComposite models problem args ref = .ok (ts, r) ↔
      ∃ objs, List.Forall₂ (fun a x => parseArg models problem a = .ok x) args objs ∧ args ≠ [] ∧
        (objs.map (·.2.2)).sum ≠ 0 ∧ ts = terms (objs.map fun x => (x.1, cleanName x.2.1, x.2.2)) ∧
        (ts.map Term.input).Nodup ∧
        r = match ref, objs with
          | none, [x] => compositeRef x.2.1
          | q, _ => q := by
  unfold addComposite
  cases hp : parseArgs models problem args with
  | error e =>
    simp only [reduceCtorEq, false_iff, not_exists]
    rintro objs ⟨h, _⟩
    rw [parseArgs_ok.mpr h] at hp; cases hp
  | ok objs =>
    have hf := parseArgs_ok.mp hp
    have hnil : objs = [] ↔ args = [] := by
      rw [← List.length_eq_zero_iff, ← List.length_eq_zero_iff, hf.length_eq]
    have huniq : ∀ objs', List.Forall₂ (fun a x => parseArg models problem a = .ok x) args objs' → objs' = objs := by
      intro objs' h
      have := parseArgs_ok.mpr h
      rw [hp] at this; cases this; rfl
    dsimp only
    constructor
    · intro h
      split_ifs at h with h1 h2 h3
      obtain ⟨rfl, rfl⟩ := Prod.mk.inj (Except.ok.inj h)
      exact ⟨objs, hf, fun h => h1 (hnil.mpr h), h2, rfl, h3, rfl⟩
    · rintro ⟨objs', h, h1, h2, rfl, h3, rfl⟩
      cases huniq objs' h
      rw [if_neg (fun h => h1 (hnil.mp h)), if_neg h2, if_neg (not_not.mpr h3)]
      rfl

/-- The short names of outputs stand for the same quantities as in a single objective; all other names are used as
given. -/
theorem cleanName_spec : cleanName "fuel_burned" = "mission:fuel_mass" ∧ cleanName "fuel" = "mission:objectives:fuel" ∧
    cleanName "mass" = "mission:final_mass" ∧ cleanName "time" = "mission:final_time" ∧
    cleanName "range" = "mission:range" ∧
    ∀ o, o ∉ ["fuel_burned", "fuel", "mass", "time", "range"] → cleanName o = o := by
  refine ⟨by decide, by decide, by decide, by decide, by decide, fun o ho => ?_⟩
  simp only [List.mem_cons, List.not_mem_nil, or_false, not_or] at ho
  simp [cleanName, ho]

/-- The factors of an accepted composite objective add up to one. -/
theorem addComposite_sum {models : List String} {problem : ProblemType} {args : List Arg} {ref r : Option ℚ} {ts : List Term}
    (h : addComposite models problem args ref = .ok (ts, r)) : (ts.map Term.factor).sum = 1 := by
  obtain ⟨objs, _, _, h2, rfl, _⟩ := addComposite_ok.mp h
  refine terms_sum ?_
  simpa [Function.comp_def] using h2

example : addComposite ["m1", "m2"] .multiMission [.triple "m1" "fuel" 2, .triple "m2" "fuel" 1] none =
    .ok ([⟨"m1_mission_objectives_fuel", "m1.mission:objectives:fuel", 2 / 3⟩,
      ⟨"m2_mission_objectives_fuel", "m2.mission:objectives:fuel", 1 / 3⟩], none) := by decide +kernel

example : addComposite [] .sizing [.text "mass"] none =
    .ok ([⟨"model_mission_final_mass", "model.mission:final_mass", 1⟩], some (-50000)) := by decide +kernel

/-- Without arguments the objective is not taken from the problem type as documented: there is no term at all. -/
theorem composite_no_args_violated (models : List String) (problem : ProblemType) (ref : Option ℚ) :
    addComposite models problem [] ref = .error .syntaxError := by
  simp [addComposite, parseArgs]

/-- Weights that cancel give a division by zero. -/
theorem composite_zero_weight_violated (models : List String) (problem : ProblemType) {o o' : String} (ho : o ∉ models)
    (ho' : o' ∉ models) (w : ℚ) (ref : Option ℚ) :
    addComposite models problem [.pairNum o w, .pairNum o' (-w)] ref = .error .zeroDivision := by
  simp [addComposite, parseArgs, parseArg, ho, ho']

/-- Different outputs can get the same input name. -/
theorem composite_names_violated : ∃ o o' : String, o ≠ o' ∧
    addComposite ["model"] .sizing [.pairNum o 1, .pairNum o' 1] none = .error .modelError :=
  ⟨"mission:fuel_mass", "mission:fuel:mass", by decide, by decide +kernel⟩

/-- The two ways to ask for the final mass order missions in opposite ways. -/
theorem mass_objectives_differ_violated (problem : ProblemType) {models : List String} (hm : "mass" ∉ models) :
    ∃ r r' ts, addObjective problem (some "mass") none = .ok (.finalMass, some r) ∧
      addComposite models problem [.text "mass"] none = .ok (ts, some r') ∧ 0 < r ∧ r' < 0 := by
  refine ⟨50000, -50000, terms [("model", "mission:final_mass", 1)], by simp [addObjective, defaultRef], ?_,
    by norm_num, by norm_num⟩
  rw [addComposite_ok]
  refine ⟨[("model", "mass", 1)], .cons ?_ .nil, by simp, by simp, rfl, by simp [terms], rfl⟩
  simp [parseArg, hm]

/-- With several arguments there is no default reference, so a final mass with positive weight is minimised. -/
theorem composite_mass_minimised_violated {v v' : String → ℚ} (hv : v "model.mission:final_mass" < v' "model.mission:final_mass")
    (ht : v "model.mission:final_time" = v' "model.mission:final_time") :
    ∃ ts, addComposite [] .sizing [.text "mass", .text "time"] none = .ok (ts, none) ∧
      scaled (value v ts) none < scaled (value v' ts) none := by
  refine ⟨[⟨"model_mission_final_mass", "model.mission:final_mass", 1 / 2⟩,
    ⟨"model_mission_final_time", "model.mission:final_time", 1 / 2⟩], by decide +kernel, ?_⟩
  simp only [scaled, value, List.map_cons, List.map_nil, List.sum_cons, List.sum_nil, ht]
  linarith

/-! ## Missions and outputs with separate weights -/

theorem advFactors_sum_aux (ms os : List (String × ℚ)) :
    ((ms.flatMap fun m => os.map fun o => (m.1, o.1, o.2 * m.2)).map (·.2.2)).sum =
      (ms.map (·.2)).sum * (os.map (·.2)).sum := by
  induction ms with
  | nil => simp
  | cons m ms ih =>
    have : ((os.map fun o => (m.1, o.1, o.2 * m.2)).map (fun x : String × String × ℚ => x.2.2)).sum =
        m.2 * (os.map (·.2)).sum := by
      rw [List.map_map]
      clear ih
      induction os with
      | nil => simp
      | cons o os ih => simp only [List.map_cons, List.sum_cons, Function.comp_apply, ih]; ring
    simp only [List.flatMap_cons, List.map_append, List.sum_append, ih, this, List.map_cons, List.sum_cons]
    ring

/-- Every mission and output gets the product of its two normalised weights. -/
theorem advFactors_mem {missions outputs : List String} {mw ow : List ℚ} {m o : String} {f : ℚ} :
    (m, o, f) ∈ advFactors missions outputs mw ow ↔
      ∃ a b, (m, a) ∈ missions.zip mw ∧ (o, b) ∈ outputs.zip ow ∧ f = b / ow.sum * (a / mw.sum) := by
  simp only [advFactors, List.mem_flatMap, List.mem_map, Prod.mk.injEq, List.zip_map_right, Prod.exists, Prod.map]
  constructor
  · rintro ⟨m', a, ⟨m'', a', h, rfl, rfl⟩, o', b, ⟨o'', b', h', rfl, rfl⟩, rfl, rfl, rfl⟩
    exact ⟨a', b', h, h', rfl⟩
  · rintro ⟨a, b, h, h', rfl⟩
    exact ⟨m, a / mw.sum, ⟨m, a, h, rfl, rfl⟩, o, b / ow.sum, ⟨o, b, h', rfl, rfl⟩, rfl, rfl, rfl⟩

/-- With one weight for every mission and output the factors add up to one. -/
theorem advFactors_sum_partial {missions outputs : List String} {mw ow : List ℚ} (hm : mw.length = missions.length)
    (ho : ow.length = outputs.length) (hm0 : mw.sum ≠ 0) (ho0 : ow.sum ≠ 0) :
    ((advFactors missions outputs mw ow).map (·.2.2)).sum = 1 := by
  unfold advFactors
  rw [advFactors_sum_aux]
  have : ∀ (l : List String) (w : List ℚ), w.length = l.length → w.sum ≠ 0 →
      ((l.zip (w.map fun x => x / w.sum)).map (·.2)).sum = 1 := by
    intro l w h h0
    have e : (l.zip (w.map fun x => x / w.sum)).map (·.2) = w.map fun x => x / w.sum := by
      have := List.map_snd_zip (l₁ := l) (l₂ := w.map fun x => x / w.sum) (by simp [h])
      exact this
    rw [e, sum_map_div, div_self h0]
  rw [this missions mw hm hm0, this outputs ow ho ho0, one_mul]

/-- Weights that are not given are equal. -/
theorem advFactors_default {missions outputs : List String} (hm : missions ≠ []) (ho : outputs ≠ []) :
    ((advFactors missions outputs (advWeights missions none) (advWeights outputs none)).map (·.2.2)).sum = 1 := by
  have : ∀ l : List String, l ≠ [] → (advWeights l none).sum ≠ 0 := by
    intro l hl
    have : (advWeights l none).sum = l.length := by simp [advWeights]
    rw [this]
    simpa using hl
  exact advFactors_sum_partial (by simp [advWeights]) (by simp [advWeights]) (this _ hm) (this _ ho)

example : advFactors ["m1", "m2"] ["fuel", "mass"] [3, 1] [1, 1] =
    [("m1", "fuel", 3 / 8), ("m1", "mass", 3 / 8), ("m2", "fuel", 1 / 8), ("m2", "mass", 1 / 8)] := by decide +kernel

/-- With a weight too many the factors do not add up to one, and there is no error. -/
theorem adv_weights_violated : ∃ (missions outputs : List String) (mw ow : List ℚ), mw.sum ≠ 0 ∧ ow.sum ≠ 0 ∧
    ((advFactors missions outputs mw ow).map (·.2.2)).sum ≠ 1 :=
  ⟨["m1"], ["fuel"], [1, 1], [1], by decide +kernel, by decide +kernel, by decide +kernel⟩

/-- The connections made: the input of the composite function is the source of each. -/
theorem advConnections_mem {missions outputs : List String} {s t : String} :
    (s, t) ∈ advConnections missions outputs ↔
    ∃ m ∈ missions, ∃ o ∈ outputs, s = "composite_function." ++ m ++ "_" ++ o ∧ t = m ++ "." ++ o := by
  simp only [advConnections, List.mem_flatMap, List.mem_map, Prod.mk.injEq]
  constructor
  · rintro ⟨m, hm, o, ho, rfl, rfl⟩; exact ⟨m, hm, o, ho, rfl, rfl⟩
  · rintro ⟨m, hm, o, ho, rfl, rfl⟩; exact ⟨m, hm, o, ho, rfl, rfl⟩

/-- So the outputs of the missions do not feed the objective. -/
theorem adv_connections_violated : ¬∀ (missions outputs : List String) (m o : String), m ∈ missions → o ∈ outputs →
    (m ++ "." ++ o, "composite_function." ++ m ++ "_" ++ o) ∈ advConnections missions outputs := by
  intro h
  have := h ["m1"] ["fuel"] "m1" "fuel" (by simp) (by simp)
  revert this
  decide +kernel

/-! ## C80 Passengers and cargo of off-design missions -/

/-- A missing or valid count. -/
def NonNegCount (n : Option ℤ) : Prop := ∀ k, n = some k → 0 ≤ k

theorem getD_nonneg {n : Option ℤ} (h : NonNegCount n) : 0 ≤ n.getD 0 := by
  cases n with
  | none => simp
  | some k => exact h k rfl

/-- Without a total the total set is zero, if it is set at all. -/
theorem offDesignPax_none {p : Payload} (h : p.pax = none) :
    offDesignPax .flops p = if someCount p.economy || someCount p.business || someCount p.first then none else some 0 := by
  unfold offDesignPax
  by_cases hc : (someCount p.economy || someCount p.business || someCount p.first) = true
  · simp [h, hc]
  · rw [if_pos ⟨rfl, h, hc⟩, if_neg hc]
    simp only [Bool.or_eq_true, not_or, Bool.not_eq_true] at hc
    have z : ∀ n : Option ℤ, someCount n = false → n.getD 0 = 0 := by
      intro n hn
      cases n with
      | none => rfl
      | some k => simpa [someCount] using hn
    rw [z _ hc.1.1, z _ hc.1.2, z _ hc.2]; rfl

/-- The passenger options of an off-design mission with FLOPS masses, from a consistent sizing mission: each class count
is the one given, else the one of the sizing mission; the total is their sum. Only if all of them are zero does a given
total count, as economy seats. -/
theorem offDesign_pax {o o' : CrewOpts} {p : Payload} {f b e : ℤ}
    (hm : o.mission = ⟨some (f + b + e), some f, some b, some e⟩)
    (hn : 0 ≤ f ∧ 0 ≤ b ∧ 0 ≤ e) (hp : NonNegCount p.first ∧ NonNegCount p.business ∧ NonNegCount p.economy)
    (h : offDesignOpts .flops o p = .ok o') :
    o'.mission = if p.first.getD f + p.business.getD b + p.economy.getD e = 0 then
        ⟨some (p.pax.getD 0), some 0, some 0, some (p.pax.getD 0)⟩
      else ⟨some (p.first.getD f + p.business.getD b + p.economy.getD e), some (p.first.getD f),
        some (p.business.getD b), some (p.economy.getD e)⟩ := by
  unfold offDesignOpts crewPayload at h
  have h1 := (crewStep_pax h).1
  rw [h1]
  have hne : ∀ (x : Option ℤ) (y : ℤ), (x.orElse fun _ => some y) = some (x.getD y) := by
    intro x y; cases x <;> rfl
  have hnn : ∀ (x : Option ℤ) (y : ℤ), NonNegCount x → 0 ≤ y → 0 ≤ x.getD y := by
    intro x y hx hy
    cases x with
    | none => exact hy
    | some k => exact hx k rfl
  have e1 : offDesignMission .flops o.mission p =
      ⟨some ((offDesignPax .flops p).getD (f + b + e)), some (p.first.getD f), some (p.business.getD b),
        some (p.economy.getD e)⟩ := by
    simp only [offDesignMission, hm, if_true, hne]
  have hF := hnn p.first f hp.1 hn.1
  have hB := hnn p.business b hp.2.1 hn.2.1
  have hE := hnn p.economy e hp.2.2 hn.2.2
  have hT : p.first.getD f + p.business.getD b + p.economy.getD e = 0 → (offDesignPax .flops p).getD (f + b + e) = p.pax.getD 0 := by
    intro hs
    have h0 : p.first.getD f = 0 ∧ p.business.getD b = 0 ∧ p.economy.getD e = 0 := by omega
    have hz : ∀ (x : Option ℤ) (y : ℤ), x.getD y = 0 → someCount x = false := by
      intro x y hx
      cases x with
      | none => rfl
      | some k => simpa [someCount] using hx
    cases hpx : p.pax with
    | none =>
      rw [offDesignPax_none hpx, hz _ _ h0.1, hz _ _ h0.2.1, hz _ _ h0.2.2]; rfl
    | some k => simp [offDesignPax, hpx]
  generalize p.first.getD f = F at *
  generalize p.business.getD b = B at *
  generalize p.economy.getD e = E at *
  generalize (offDesignPax .flops p).getD (f + b + e) = T at *
  have e2 : (paxStep .flops { o with mission := offDesignMission .flops o.mission p, cargo := p.cargo.orElse fun _ => o.cargo }).mission
      = Pax.resolve .flops ⟨some T, some F, some B, some E⟩ := by
    simp [paxStep, e1, Pax.fill, Pax.provided]
  rw [e2]
  have hs := Pax.classSum_flops (some T) F B E
  by_cases h0 : F + B + E = 0
  · have hz : F = 0 ∧ B = 0 ∧ E = 0 := by omega
    obtain ⟨rfl, rfl, rfl⟩ := hz
    rw [if_pos h0, hT h0]
    by_cases ht : p.pax.getD 0 = 0
    · rw [ht, Pax.resolve_same (by simp [Pax.classSum])]
    · rw [Pax.resolve_zero (by simpa [Pax.classSum] using ht) (by simp [Pax.classSum])]
      rfl
  · rw [if_neg h0]
    by_cases ht : T = F + B + E
    · rw [Pax.resolve_same (by rw [hs]; exact ht), ht]
    · rw [Pax.resolve_sum (by rw [hs]; exact ht) (by rw [hs]; exact h0), hs]

/-- Without passenger arguments the off-design mission has the passengers of the sizing mission. -/
theorem offDesign_default {o o' : CrewOpts} {p : Payload} (hm : o.mission.Consistent)
    (hp : p.first = none ∧ p.business = none ∧ p.economy = none ∧ p.pax = none) (h : offDesignOpts .flops o p = .ok o') :
    o'.mission = o.mission := by
  obtain ⟨f, b, e, hf, hb, he, hm⟩ := hm
  obtain ⟨p1, p2, p3, p4⟩ := hp
  have := offDesign_pax hm ⟨hf, hb, he⟩ (by simp [p1, p2, p3, NonNegCount]) h
  rw [this, hm]
  simp only [p1, p2, p3, p4, Option.getD_none]
  split_ifs with h0
  · have : f = 0 ∧ b = 0 ∧ e = 0 := by omega
    obtain ⟨rfl, rfl, rfl⟩ := this
    rfl
  · rfl

/-- With all classes at zero there are no passengers. -/
theorem offDesign_empty {o o' : CrewOpts} {p : Payload} (hm : o.mission.Consistent)
    (hp : p.first = some 0 ∧ p.business = some 0 ∧ p.economy = some 0 ∧ p.pax = none)
    (h : offDesignOpts .flops o p = .ok o') : o'.mission = ⟨some 0, some 0, some 0, some 0⟩ := by
  obtain ⟨f, b, e, hf, hb, he, hm⟩ := hm
  obtain ⟨p1, p2, p3, p4⟩ := hp
  have := offDesign_pax hm ⟨hf, hb, he⟩ (by simp [p1, p2, p3, NonNegCount]) h
  rw [this]
  simp [p1, p2, p3, p4]

/-- The design passengers stay. -/
theorem offDesign_design {o o' : CrewOpts} {p : Payload} (hd : o.design.Consistent)
    (h : offDesignOpts .flops o p = .ok o') : o'.design = o.design := by
  obtain ⟨f, b, e, hf, hb, he, hd⟩ := hd
  unfold offDesignOpts crewPayload at h
  rw [(crewStep_pax h).2]
  have hpd : o.design.provided .flops = true := by rw [hd]; rfl
  simp only [paxStep, hpd, Bool.not_true, Bool.and_false, Bool.false_eq_true, if_false]
  rw [hd]
  simp only [Pax.fill, Option.getD_some]
  rw [Pax.resolve_same (by simp [Pax.classSum])]

/-- Concrete off-design options: a sizing mission with 10 first class and 140 economy seats. -/
def sized150 : CrewOpts :=
  ⟨⟨some 150, some 10, some 0, some 140⟩, ⟨some 150, some 10, some 0, some 140⟩, none, none, none, none, none, none, none,
    none, none, none, some 1500, none, some true, none⟩

/-- No argument. -/
def noPayload : Payload := ⟨none, none, none, none, none, none, none⟩

example : (offDesignOpts .flops sized150 { noPayload with economy := some 50 }).map (·.mission) =
    .ok ⟨some 60, some 10, some 0, some 50⟩ := by decide +kernel

/-- With FLOPS masses a given total number of passengers is ignored unless the aircraft has no seats. -/
theorem offDesign_num_pax_violated : ∃ (o o' : CrewOpts) (p : Payload), o.mission.Consistent ∧ p.pax = some 50 ∧
    p.first = none ∧ p.business = none ∧ p.economy = none ∧ offDesignOpts .flops o p = .ok o' ∧
    o'.mission.total = some 150 := by
  refine ⟨sized150, _, { noPayload with pax := some 50 }, ⟨10, 0, 140, by decide, by decide, by decide, rfl⟩, rfl, rfl, rfl,
    rfl, rfl, ?_⟩
  decide +kernel

/-- With GASP masses the total and the cargo mass are those given, else those of the sizing mission; a cargo mass above the
maximum is refused. -/
theorem offDesign_gasp {o o' : CrewOpts} {p : Payload} {n : ℤ} {c m : ℚ} (hn : o.mission.total = some n)
    (hc : o.cargo = some c) (hm : o.maxCargo = some m)
    (h : offDesignOpts .gasp o p = .ok o') :
    o'.mission.total = some (p.pax.getD n) ∧ o'.cargo = some (p.cargo.getD c) ∧ p.cargo.getD c ≤ m := by
  unfold offDesignOpts at h
  have h1 := (crewPayload_pax_gasp _ _ _ h).1
  have hx : (offDesignMission .gasp o.mission p).total = some (p.pax.getD n) := by
    simp only [offDesignMission, offDesignPax, hn, reduceCtorEq, false_and, if_false]
    cases p.pax <;> rfl
  refine ⟨?_, ?_⟩
  · rw [h1]
    simp only
    rw [hx]; rfl
  · have e : (p.cargo.orElse fun _ => o.cargo) = some (p.cargo.getD c) := by rw [hc]; cases p.cargo <;> rfl
    have h' : cargoStep false (paxStep .gasp { o with mission := offDesignMission .gasp o.mission p, cargo := p.cargo.orElse fun _ => o.cargo }) =
        .ok o' := h
    obtain ⟨k1, k2, k3, k4, -⟩ := cargoStep_values _ _ _ h'
    have hc' := k4 (p.cargo.getD c) e (.inl rfl)
    obtain ⟨c', m', d', l1, -, -, l4, -, l6, -⟩ := cargoStep_limits _ _ _ h'
    refine ⟨hc', ?_⟩
    rw [hc'] at l1
    cases l1
    rw [← l6 m hm]; exact l4

/-- The ferry flight of an aircraft with GASP masses keeps the passengers of the sizing mission, since the class counts
handed over are only read for FLOPS masses. -/
theorem gasp_ferry_violated (s : Sized) (hs : s.massMethod = .gasp) {o o' : CrewOpts} {n : ℤ} (hn : o.mission.total = some n)
    {c m : ℚ} (hc : o.cargo = some c) (hm : o.maxCargo = some m)
    (h : offDesignOpts s.massMethod o (mission4 s).payload = .ok o') :
    o'.mission.total = some n ∧ o'.cargo = some 0 := by
  rw [hs] at h
  have := offDesign_gasp hn hc hm h
  have e : (mission4 s).payload.cargo = some 0 := by simp [mission4, hs]
  rw [e] at this
  exact ⟨this.1, this.2.1⟩

example : (offDesignOpts .gasp { sized150 with cargo := some 1000, maxCargo := some 2000, desCargo := some 1000, massWithBags := some 200 }
    { noPayload with first := some 0, business := some 0, economy := some 0, cargo := some 0 }).map (·.mission.total) = .ok (some 150) := by
  decide +kernel

/-- FLOPS cargo is what is given, else that of the sizing mission; with GASP masses it is not touched. -/
theorem offDesignCargo_spec (m : MassMethod) (given old : Option ℚ) :
    offDesignCargo m given old = match m, given with
      | .flops, some v => some v
      | _, _ => old := by
  cases m <;> cases given <;> rfl

/-- The variable floated to fill the aircraft with cargo: with FLOPS masses the miscellaneous cargo if there is any, else
the wing cargo if there is any, else the miscellaneous cargo up to a twentieth of the gross mass. -/
theorem fillCargo_flops (p : Payload) (gross : ℚ) : ∃ v up ref, fillCargo .flops p gross = .ok (v, up, ref) ∧
    ((∃ c, p.misc = some c ∧ c ≠ 0 ∧ v = .miscCargo ∧ ref = c ∧ up = c * (11 / 10)) ∨
     ((p.misc = none ∨ p.misc = some 0) ∧ ∃ c, p.wing = some c ∧ c ≠ 0 ∧ v = .wingCargo ∧ ref = c ∧ up = c * (11 / 10)) ∨
     ((p.misc = none ∨ p.misc = some 0) ∧ (p.wing = none ∨ p.wing = some 0) ∧ v = .miscCargo ∧ ref = gross ∧
        up = gross * (5 / 100))) := by
  have z : ∀ x : Option ℚ, x.getD 0 = 0 ↔ x = none ∨ x = some 0 := by intro x; cases x <;> simp
  have nz : ∀ x : Option ℚ, x.getD 0 ≠ 0 → x = some (x.getD 0) := by intro x; cases x <;> simp
  unfold fillCargo
  simp only
  by_cases h1 : p.misc.getD 0 = 0
  · by_cases h2 : p.wing.getD 0 = 0
    · rw [if_pos h1, if_pos h2]
      exact ⟨_, _, _, rfl, .inr (.inr ⟨(z _).mp h1, (z _).mp h2, rfl, rfl, rfl⟩)⟩
    · rw [if_pos h1, if_neg h2]
      exact ⟨_, _, _, rfl, .inr (.inl ⟨(z _).mp h1, _, nz _ h2, h2, rfl, rfl, rfl⟩)⟩
  · rw [if_neg h1]
    exact ⟨_, _, _, rfl, .inl ⟨_, nz _ h1, h1, rfl, rfl, rfl⟩⟩

/-- With GASP masses the given cargo mass is floated with room of a twentieth above it. -/
theorem fillCargo_gasp_partial (p : Payload) (gross : ℚ) {v : ℚ} (h : p.cargo = some v) (hv : 0 < v) :
    ∃ up, fillCargo .gasp p gross = .ok (.cargoMass, up, v) ∧ v < up ∧ up - v = v / 20 :=
  ⟨v * (105 / 100), by simp [fillCargo, h], by linarith, by ring⟩

/-- With GASP masses a cargo mass must be given, otherwise `None` is multiplied. -/
theorem fillCargo_gasp_violated (p : Payload) (gross : ℚ) (h : p.cargo = none) :
    fillCargo .gasp p gross = .error .typeError := by simp [fillCargo, h]

/-- An off-design mission is never a sizing mission and fills at most one of cargo and fuel. -/
theorem offDesignCheck_ok (problem : ProblemType) (c f : Bool) :
    offDesignCheck problem c f = .ok () ↔ problem ≠ .sizing ∧ ¬(c = true ∧ f = true) := by
  cases problem <;> cases c <;> cases f <;> simp [offDesignCheck]

/-- The name chosen is the first one whose directory does not exist. -/
theorem firstFree_spec (used : ℕ → Bool) (fuel n k : ℕ) : firstFree used fuel n = some k ↔
    n ≤ k ∧ k < n + fuel ∧ used k = false ∧ ∀ j, n ≤ j → j < k → used j = true := by
  induction fuel generalizing n with
  | zero => simp only [firstFree, reduceCtorEq, false_iff]; omega
  | succ fuel ih =>
    unfold firstFree
    cases hu : used n with
    | true =>
      simp only [if_true]
      rw [ih]
      constructor
      · rintro ⟨h1, h2, h3, h4⟩
        refine ⟨by omega, by omega, h3, fun j hj hk => ?_⟩
        by_cases hjn : j = n
        · rw [hjn]; exact hu
        · exact h4 j (by omega) hk
      · rintro ⟨h1, h2, h3, h4⟩
        have : n ≠ k := by rintro rfl; rw [hu] at h3; cases h3
        exact ⟨by omega, by omega, h3, fun j hj hk => h4 j (by omega) hk⟩
    | false =>
      simp only [Bool.false_eq_true, if_false, Option.some.injEq]
      constructor
      · rintro rfl
        exact ⟨le_refl _, by omega, hu, fun j hj hk => by omega⟩
      · rintro ⟨h1, h2, h3, h4⟩
        by_contra hne
        have := h4 n (le_refl _) (by omega)
        rw [hu] at this; cases this

/-- If some name is free within the number of tries, one is found. -/
theorem firstFree_total (used : ℕ → Bool) {fuel n k : ℕ} (h1 : n ≤ k) (h2 : k < n + fuel) (h : used k = false) :
    ∃ j, firstFree used fuel n = some j := by
  induction fuel generalizing n with
  | zero => omega
  | succ fuel ih =>
    unfold firstFree
    cases hu : used n with
    | false => exact ⟨n, by simp⟩
    | true =>
      have : n ≠ k := by rintro rfl; rw [hu] at h; cases h
      simpa using ih (by omega) (by omega)

/-- A mission of minimal fuel has a target range, one of maximal range has a gross mass: that given, else the design
value. -/
theorem offDesignTargets_spec (range gross : Option ℚ) (dr dg : ℚ) :
    (offDesignTargets .minFuel range gross dr dg).1 = some (range.getD dr) ∧
    (offDesignTargets .maxRange range gross dr dg) = (none, some (gross.getD dg)) := ⟨rfl, rfl⟩

/-- The guess of the gross mass of a mission of minimal fuel is a tenth below a gross mass the user gave, too. -/
theorem offDesign_gross_guess_violated (range : Option ℚ) {g : ℚ} (hg : 0 < g) (dr dg : ℚ) :
    (offDesignTargets .minFuel range (some g) dr dg).2 ≠ some g := by
  simp only [offDesignTargets, Option.getD_some, ne_eq, Option.some.injEq]
  intro h; linarith

/-! ## C81 Payload-range analysis -/

/-- Fuel with full tanks, or up to the gross mass if that is less. -/
theorem ferry_gross (s : Sized) : (mission4 s).gross = some (min (s.operating + maxUsable s) s.gross) := by
  unfold mission4 hasPoint3
  simp only [decide_eq_true_eq, Option.some.injEq]
  split_ifs with h
  · rw [min_eq_left h.le]
  · rw [min_eq_right (not_lt.mp h)]; ring

/-- The ferry flight never takes off above the gross mass of the sizing mission, nor with more fuel than fits. -/
theorem ferry_limits (s : Sized) {g : ℚ} (h : (mission4 s).gross = some g) : g ≤ s.gross ∧ g - s.operating ≤ maxUsable s := by
  rw [ferry_gross] at h
  cases h
  exact ⟨min_le_right _ _, by linarith [min_le_left (s.operating + maxUsable s) s.gross]⟩

/-- In terms of the tanks: what is burned on the ferry flight is at most what they hold less the unusable fuel. -/
theorem ferry_fuel (s : Sized) {g : ℚ} (h : (mission4 s).gross = some g) :
    g - s.operating ≤ s.capacity - s.unusable ∧
      (s.operating + s.capacity - s.unusable ≤ s.gross → g - s.operating = s.capacity - s.unusable) := by
  refine ⟨(ferry_limits s h).2, fun hle => ?_⟩
  rw [ferry_gross] at h
  cases h
  have : s.operating + maxUsable s ≤ s.gross := by unfold maxUsable; linarith
  rw [min_eq_left this]
  unfold maxUsable
  ring

/-- The ferry flight is asked for without passengers in any class and without cargo, and with the fuel floated. -/
theorem ferry_empty (s : Sized) : (mission4 s).payload.first = some 0 ∧ (mission4 s).payload.business = some 0 ∧
    (mission4 s).payload.economy = some 0 ∧ (mission4 s).payload.wing = some 0 ∧ (mission4 s).payload.misc = some 0 ∧
    (mission4 s).payload.pax = none ∧ (s.massMethod = .gasp → (mission4 s).payload.cargo = some 0) ∧
    (mission4 s).fillCargo = false ∧ (mission4 s).fillFuel = true := by
  refine ⟨rfl, rfl, rfl, rfl, rfl, rfl, fun h => ?_, rfl, rfl⟩
  simp [mission4, h]

/-- The share of the payload that is left with full tanks is positive, … -/
theorem payloadFrac_pos {s : Sized} (h : hasPoint3 s = true) (hp : 0 < s.payload) : 0 < payloadFrac s := by
  unfold hasPoint3 at h
  simp only [decide_eq_true_eq] at h
  exact div_pos (by linarith) hp

/-- … and at most one exactly if the fuel of the sizing mission fits into the tanks. -/
theorem payloadFrac_le_one_iff {s : Sized} (hp : 0 < s.payload) :
    payloadFrac s ≤ 1 ↔ s.gross - s.operating - s.payload ≤ maxUsable s := by
  unfold payloadFrac
  rw [div_le_one hp]
  constructor <;> intro h <;> linarith

theorem scaleCount_le (n : ℕ) {f : ℚ} (hf : 0 ≤ f) : 0 ≤ scaleCount n f ∧ (scaleCount n f : ℚ) ≤ n * f ∧ n * f < scaleCount n f + 1 := by
  have : 0 ≤ (n : ℚ) * f := mul_nonneg (Nat.cast_nonneg n) hf
  unfold scaleCount
  rw [if_pos this]
  exact ⟨Int.floor_nonneg.mpr this, Int.floor_le _, Int.lt_floor_add_one _⟩

/-- The mission with full tanks carries the same share of every kind of payload, passengers rounded down. -/
theorem mission3_spec {s : Sized} {m : Mission} (h : mission3 s = .ok m) (hp : 0 ≤ payloadFrac s) :
    ∃ f b e w c, s.first = some f ∧ s.business = some b ∧ s.economy = some e ∧ s.wing = some w ∧ s.misc = some c ∧
      m.payload.first = some ⌊(f : ℚ) * payloadFrac s⌋ ∧ m.payload.business = some ⌊(b : ℚ) * payloadFrac s⌋ ∧
      m.payload.economy = some ⌊(e : ℚ) * payloadFrac s⌋ ∧ m.payload.pax = none ∧
      m.payload.wing = some (w * payloadFrac s) ∧ m.payload.misc = some (c * payloadFrac s) ∧
      m.gross = none ∧ m.fillCargo = true ∧ m.fillFuel = false := by
  unfold mission3 at h
  split_ifs at h
  split at h
  · rename_i w c f b e hw hc hf hb he
    cases h
    have hs : ∀ n : ℕ, scaleCount n (payloadFrac s) = ⌊(n : ℚ) * payloadFrac s⌋ := by
      intro n
      unfold scaleCount
      rw [if_pos (mul_nonneg (Nat.cast_nonneg n) hp)]
    exact ⟨f, b, e, w, c, hf, hb, he, hw, hc, by simp [hs], by simp [hs], by simp [hs], rfl, rfl, rfl, rfl, rfl, rfl⟩
  · cases h

/-- So, flown with FLOPS masses, it has at most the share of the design passengers, and at most two fewer than the share
rounded down. -/
theorem mission3_pax {s : Sized} {m : Mission} (h : mission3 s = .ok m) (hp : 0 ≤ payloadFrac s) {o o' : CrewOpts}
    (hm : o.mission.Consistent) (ho : offDesignOpts .flops o m.payload = .ok o') :
    ∃ f b e t, s.first = some f ∧ s.business = some b ∧ s.economy = some e ∧ o'.mission.total = some t ∧
      (t : ℚ) ≤ ((f + b + e : ℕ) : ℚ) * payloadFrac s ∧ ((f + b + e : ℕ) : ℚ) * payloadFrac s < t + 3 := by
  obtain ⟨f, b, e, w, c, hf, hb, he, hw, hc, m1, m2, m3, m4, -⟩ := mission3_spec h hp
  obtain ⟨of, ob, oe, h1, h2, h3, hm⟩ := hm
  have nn : ∀ n : ℕ, 0 ≤ ⌊(n : ℚ) * payloadFrac s⌋ := fun n => Int.floor_nonneg.mpr (mul_nonneg (Nat.cast_nonneg n) hp)
  have hres := offDesign_pax hm ⟨h1, h2, h3⟩ (by
    rw [m1, m2, m3]
    refine ⟨?_, ?_, ?_⟩ <;> intro k hk <;> cases hk <;> exact nn _) ho
  rw [m1, m2, m3, m4] at hres
  simp only [Option.getD_some, Option.getD_none] at hres
  refine ⟨f, b, e, ⌊(f : ℚ) * payloadFrac s⌋ + ⌊(b : ℚ) * payloadFrac s⌋ + ⌊(e : ℚ) * payloadFrac s⌋, hf, hb, he, ?_, ?_, ?_⟩
  · rw [hres]
    split_ifs with h0
    · simp [h0]
    · rfl
  · push_cast
    have := Int.floor_le ((f : ℚ) * payloadFrac s)
    have := Int.floor_le ((b : ℚ) * payloadFrac s)
    have := Int.floor_le ((e : ℚ) * payloadFrac s)
    linarith
  · push_cast
    have := Int.lt_floor_add_one ((f : ℚ) * payloadFrac s)
    have := Int.lt_floor_add_one ((b : ℚ) * payloadFrac s)
    have := Int.lt_floor_add_one ((e : ℚ) * payloadFrac s)
    linarith

/-- The table has one entry for each of the four missions: no fuel, design, full tanks and ferry. -/
theorem payloadRange_table {fly : Mission → Result} {v : ℕ} {s : Sized} {t : Table} {b : Option (ℚ × Option ℚ)}
    (h : payloadRange fly v s = .ok (.table t, b)) :
    ∃ m3, mission3 s = .ok m3 ∧ hasPoint3 s = true ∧ (fly m3).success = true ∧ (fly (mission4 s)).success = true ∧
      t.payload = [s.payload, s.payload, (fly m3).payload, (fly (mission4 s)).payload] ∧
      t.fuel = [0, s.fuel, (fly m3).fuel, (fly (mission4 s)).fuel] ∧
      t.range = [0, s.range, (fly m3).range, (fly (mission4 s)).range] := by
  unfold payloadRange at h
  split at h
  · cases h
  split at h
  · cases h
  split at h
  · cases h
  · cases h
  · simp only at h
    split at h
    · rename_i h3
      split at h
      · cases h
      · rename_i m3 hm3
        split at h
        · cases h
        · split_ifs at h with h5
          · obtain ⟨h6, -⟩ := Prod.mk.inj (Except.ok.inj h)
            cases h6
            simp only [Bool.and_eq_true] at h5
            exact ⟨m3, hm3, h3, h5.2, h5.1, rfl, rfl, rfl⟩
          · cases h
    · split_ifs at h <;> cases h

/-- An aircraft to try the analysis on. -/
def demo : Sized where
  payload := 30000
  range := 2000
  gross := 150000
  operating := 80000
  capacity := 50000
  unusable := 500
  fuel := 40000
  first := some 10
  business := some 0
  economy := some 140
  wing := some 0
  misc := some 1000
  massMethod := .flops
  cruiseBounds := some (60, some 600)
  success := true
  problem := .sizing

/-- Off-design runs to try the analysis with. -/
def flyDemo (m : Mission) : Result := if m.fillFuel then ⟨0, 4000, 49500, true⟩ else ⟨20000, 3000, 49500, true⟩

example : payloadRange flyDemo 1 demo = .ok (.table ⟨[30000, 30000, 20000, 0], [0, 40000, 49500, 49500], [0, 2000, 3000, 4000]⟩,
    some (60, some 1200)) := by decide +kernel

/-- The bounds of the cruise phase of the sized problem are doubled, though a copy was meant. -/
theorem payloadRange_bounds_violated {fly : Mission → Result} {v : ℕ} {s : Sized} {out : Outcome} {lo hi : ℚ}
    {b : Option (ℚ × Option ℚ)} (hb : s.cruiseBounds = some (lo, some hi)) (h : payloadRange fly v s = .ok (out, b))
    (ho : out ≠ .refused) : b = some (lo, some (2 * hi)) := by
  unfold payloadRange at h
  split at h
  · cases h; exact absurd rfl ho
  split at h
  · cases h; exact absurd rfl ho
  · rw [hb] at h
    simp only at h
    split at h
    · split at h
      · cases h
      · split at h
        · cases h
        · split_ifs at h <;> cases h <;> rfl
    · split_ifs at h <;> cases h
      rfl

/-- Without a message (verbosity 0) a sizing run that did not converge is used all the same. -/
theorem quiet_unconverged_violated : ∃ (fly : Mission → Result) (s : Sized) (t : Table) (b : Option (ℚ × Option ℚ)),
    s.success = false ∧ payloadRange fly 0 s = .ok (.table t, b) ∧ payloadRange fly 1 s = .ok (.refused, s.cruiseBounds) :=
  ⟨flyDemo, { demo with success := false }, ⟨[30000, 30000, 20000, 0], [0, 40000, 49500, 49500], [0, 2000, 3000, 4000]⟩,
    some (60, some 1200), rfl, by decide +kernel, by decide +kernel⟩

/-- If the tanks hold more than the aircraft can lift there is never a table: the fuel of the third mission is missing. -/
theorem no_point3_violated (fly : Mission → Result) (v : ℕ) {s : Sized} (h3 : hasPoint3 s = false) (hs : s.success = true)
    (hp : s.problem ≠ .multiMission) {lo hi : ℚ} (hb : s.cruiseBounds = some (lo, some hi))
    (hf : (fly (mission4 s)).success = true) : payloadRange fly v s = .error .unboundLocal := by
  simp [payloadRange, hs, hp, hb, h3, hf]

example : hasPoint3 { demo with capacity := 80000 } = false := by decide +kernel

/-- With GASP masses there is no table either. -/
theorem gasp_table_violated (fly : Mission → Result) (v : ℕ) {s : Sized} (hs : s.massMethod = .gasp) (t : Table)
    (b : Option (ℚ × Option ℚ)) : payloadRange fly v s ≠ .ok (.table t, b) := by
  intro h
  have h' := h
  obtain ⟨m3, hm3, h3, -⟩ := payloadRange_table h
  have hc : m3.payload.cargo = none := by
    unfold mission3 at hm3
    split_ifs at hm3
    split at hm3
    · cases hm3; rfl
    · cases hm3
  unfold payloadRange at h'
  split at h'
  · cases h'
  split at h'
  · cases h'
  split at h'
  · cases h'
  · cases h'
  · simp only [hm3, hs, fillCargo_gasp_violated _ _ hc] at h'
    cases h'

/-- A mission without a cruise phase, or without an upper bound for its duration, ends in an error. -/
theorem no_cruise_violated (fly : Mission → Result) (v : ℕ) {s : Sized} (hs : s.success = true) (hp : s.problem ≠ .multiMission) :
    (s.cruiseBounds = none → payloadRange fly v s = .error .keyError) ∧
    (∀ lo, s.cruiseBounds = some (lo, none) → payloadRange fly v s = .error .typeError) := by
  constructor
  · intro h; simp [payloadRange, hs, hp, h]
  · intro lo h; simp [payloadRange, hs, hp, h]

/-- For an aircraft sized with more fuel than its tanks hold, the mission with full tanks is flown with more than the
maximum payload. -/
theorem payloadFrac_above_one_violated : ∃ s : Sized, hasPoint3 s = true ∧ 0 < s.payload ∧ 1 < payloadFrac s :=
  ⟨{ demo with capacity := 30500 }, by decide +kernel, by decide +kernel, by decide +kernel⟩

end Verif.Objective
