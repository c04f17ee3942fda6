import Mathlib.Tactic.Ring
import Mathlib.Tactic.Linarith
import Mathlib.Tactic.NormNum
import Mathlib.Tactic.Tauto
import Mathlib.Algebra.BigOperators.Group.List.Basic
import Verif.Model.MissionWiring
import Verif.Props.Propulsion
import Verif.Props.Phases

/-! # Connections between the parts of a mission -/

namespace Verif.Wiring

open Verif

/-! ## C83 Masses that reach the fuel summation -/

theorem lastPart_mass : lastPart "mass" = "mass" := by decide +kernel

/-- The four inputs of the fuel summation have different names. -/
theorem targets_ne (n : String) :
    n ++ ".fuel_burned.mass_final" ≠ n ++ ".reserve_fuel_frac.final_mass" ∧
    n ++ ".fuel_burned.mass_final" ≠ n ++ ".reserve_fuel_burned.mass_initial" ∧
    n ++ ".fuel_burned.mass_final" ≠ n ++ ".reserve_fuel_burned.mass_final" ∧
    n ++ ".reserve_fuel_frac.final_mass" ≠ n ++ ".reserve_fuel_burned.mass_initial" ∧
    n ++ ".reserve_fuel_frac.final_mass" ≠ n ++ ".reserve_fuel_burned.mass_final" ∧
    n ++ ".reserve_fuel_burned.mass_initial" ≠ n ++ ".reserve_fuel_burned.mass_final" := by
  simp only [ne_eq, String.append_right_inj]
  decide

/-- The connections that the energy subsystem asks for when the ends of the reserve mission are in different phases. -/
theorem energy_conns_many (n : String) (margin : ℚ) (main reserve : List String) (lm r0 r1 : String)
    (hm : main.getLast? = some lm) (h0 : reserve.head? = some r0) (h1 : reserve.getLast? = some r1)
    (ha : lm ≠ r0) (hb : lm ≠ r1) (hc : r0 ≠ r1) :
    ∃ b, energyBus n margin main reserve = .ok b ∧ connectBus b =
      [⟨lm, "mass", n ++ ".fuel_burned.mass_final", -1⟩] ++
      (if margin ≠ 0 then [⟨lm, "mass", n ++ ".reserve_fuel_frac.final_mass", -1⟩] else []) ++
      [⟨r0, "mass", n ++ ".reserve_fuel_burned.mass_initial", 0⟩,
       ⟨r1, "mass", n ++ ".reserve_fuel_burned.mass_final", -1⟩] := by
  refine ⟨_, by simp only [energyBus, hm, h0, h1]; rfl, ?_⟩
  simp only [Dict.set, if_neg ha, if_neg hb, if_neg hc, connectBus, List.flatMap_cons, List.flatMap_nil, lastPart_mass]
  by_cases h : margin = 0 <;> simp [h]

/-- Without reserve phases only the end of the last main phase is connected. -/
theorem energy_conns_none (n : String) (margin : ℚ) (main : List String) (lm : String)
    (hm : main.getLast? = some lm) :
    ∃ b, energyBus n margin main [] = .ok b ∧ connectBus b =
      [⟨lm, "mass", n ++ ".fuel_burned.mass_final", -1⟩] ++
      (if margin ≠ 0 then [⟨lm, "mass", n ++ ".reserve_fuel_frac.final_mass", -1⟩] else []) := by
  refine ⟨_, by simp only [energyBus, hm, List.head?_nil, List.getLast?_nil]; rfl, ?_⟩
  simp only [Dict.set, connectBus, List.flatMap_cons, List.flatMap_nil, lastPart_mass]
  by_cases h : margin = 0 <;> simp [h]

/-- With a single reserve phase its start is not connected: the entry for the end replaces the one for the start. -/
theorem energy_conns_single (n : String) (margin : ℚ) (main : List String) (lm r : String)
    (hm : main.getLast? = some lm) (ha : lm ≠ r) :
    ∃ b, energyBus n margin main [r] = .ok b ∧ connectBus b =
      [⟨lm, "mass", n ++ ".fuel_burned.mass_final", -1⟩] ++
      (if margin ≠ 0 then [⟨lm, "mass", n ++ ".reserve_fuel_frac.final_mass", -1⟩] else []) ++
      [⟨r, "mass", n ++ ".reserve_fuel_burned.mass_final", -1⟩] := by
  refine ⟨_, by simp only [energyBus, hm, List.head?_cons, List.getLast?_singleton]; rfl, ?_⟩
  simp only [Dict.set, if_neg ha, if_true, connectBus, List.flatMap_cons, List.flatMap_nil, lastPart_mass]
  by_cases h : margin = 0 <;> simp [h]

/-- A mission without main phases is refused. -/
theorem energy_no_main (n : String) (margin : ℚ) (reserve : List String) :
    energyBus n margin [] reserve = .error .indexError := rfl

/-- Names of distinct phases give distinct first and last phases. -/
theorem ends_distinct {main reserve : List String} {lm r0 r1 : String} (hn : (main ++ reserve).Nodup)
    (hm : main.getLast? = some lm) (h0 : reserve.head? = some r0) (h1 : reserve.getLast? = some r1) :
    lm ≠ r0 ∧ lm ≠ r1 ∧ (2 ≤ reserve.length → r0 ≠ r1) := by
  have a : lm ∈ main := List.mem_of_getLast? hm
  have b : r0 ∈ reserve := List.mem_of_head? h0
  have c : r1 ∈ reserve := List.mem_of_getLast? h1
  have hd := (List.nodup_append.mp hn).2.2
  refine ⟨hd lm a r0 b, hd lm a r1 c, fun hl e => ?_⟩
  have hr := (List.nodup_append.mp hn).2.1
  cases reserve with
  | nil => cases h0
  | cons x xs =>
    cases xs with
    | nil => simp at hl
    | cons y ys =>
      simp only [List.head?_cons, Option.some.injEq] at h0
      rw [List.getLast?_cons_cons] at h1
      have : r1 ∈ y :: ys := List.mem_of_getLast? h1
      exact (List.nodup_cons.mp hr).1 (h0 ▸ e ▸ this)

/-- The masses that reach the fuel summation when there are at least two reserve phases: end of the main mission, start of
the first and end of the last reserve phase. -/
theorem wired_many (n : String) (margin : ℚ) (main reserve : List String) (lm r0 r1 : String)
    (hn : (main ++ reserve).Nodup) (hm : main.getLast? = some lm) (h0 : reserve.head? = some r0)
    (h1 : reserve.getLast? = some r1) (hl : 2 ≤ reserve.length) (hist : String → String → List ℝ) (a s e : ℝ)
    (ea : (hist lm "mass").getLast? = some a) (es : (hist r0 "mass").head? = some s)
    (ee : (hist r1 "mass").getLast? = some e) (gross additional totalFuel capacity unusable taxiIn : ℝ) :
    ∃ b, energyBus n margin main reserve = .ok b ∧
      let f := fuelOf n margin (connectBus b) reserve hist gross additional totalFuel capacity unusable taxiIn
      f.massFinal = a ∧ (margin ≠ 0 → f.finalMass = a) ∧ f.hasReserve = true ∧ f.reserveInitial = s ∧
        f.reserveFinal = e := by
  obtain ⟨d1, d2, d3⟩ := ends_distinct hn hm h0 h1
  obtain ⟨b, hb, hc⟩ := energy_conns_many n margin main reserve lm r0 r1 hm h0 h1 d1 d2 (d3 hl)
  have hz : (hist r0 "mass")[0]? = some s := by rw [← es, List.head?_eq_getElem?]
  obtain ⟨t1, t2, t3, t4, t5, t6⟩ := targets_ne n
  have hne : reserve ≠ [] := by rintro rfl; simp at hl
  refine ⟨b, hb, ?_⟩
  dsimp only
  rw [hc]
  by_cases hmg : margin = 0
  · refine ⟨?_, fun h => absurd hmg h, ?_, ?_, ?_⟩ <;>
      simp [fuelOf, input, pick, hmg, ea, hz, ee, List.find?, t1, t2, t3, t4, t5, t6, hne]
  · refine ⟨?_, fun _ => ?_, ?_, ?_, ?_⟩ <;>
      simp [fuelOf, input, pick, hmg, ea, hz, ee, List.find?, t1, t2, t3, t4, t5, t6, hne]

/-- Without reserve phases. -/
theorem wired_none (n : String) (margin : ℚ) (main : List String) (lm : String) (hm : main.getLast? = some lm)
    (hist : String → String → List ℝ) (a : ℝ) (ea : (hist lm "mass").getLast? = some a)
    (gross additional totalFuel capacity unusable taxiIn : ℝ) :
    ∃ b, energyBus n margin main [] = .ok b ∧
      let f := fuelOf n margin (connectBus b) [] hist gross additional totalFuel capacity unusable taxiIn
      f.massFinal = a ∧ (margin ≠ 0 → f.finalMass = a) ∧ f.hasReserve = false := by
  obtain ⟨b, hb, hc⟩ := energy_conns_none n margin main lm hm
  obtain ⟨t1, t2, t3, t4, t5, t6⟩ := targets_ne n
  refine ⟨b, hb, ?_⟩
  dsimp only
  rw [hc]
  by_cases hmg : margin = 0
  · refine ⟨?_, fun h => absurd hmg h, ?_⟩ <;> simp [fuelOf, input, pick, hmg, ea, List.find?, t1]
  · refine ⟨?_, fun _ => ?_, ?_⟩ <;> simp [fuelOf, input, pick, hmg, ea, List.find?, t1]

/-- A single reserve phase burns one pound minus its final mass, whatever its mass at the start: the fuel of the reserve
mission is wrong for every such mission. -/
theorem single_reserve_violated (n : String) (margin : ℚ) (main : List String) (lm r : String)
    (hn : (main ++ [r]).Nodup) (hm : main.getLast? = some lm) (hist : String → String → List ℝ) (e : ℝ)
    (ee : (hist r "mass").getLast? = some e) (gross additional totalFuel capacity unusable taxiIn : ℝ) :
    ∃ b, energyBus n margin main [r] = .ok b ∧
      (fuelOf n margin (connectBus b) [r] hist gross additional totalFuel capacity unusable taxiIn).reserveBurned
        = 1 - e := by
  obtain ⟨d1, d2, d3⟩ := ends_distinct (r0 := r) (r1 := r) hn hm rfl rfl
  obtain ⟨b, hb, hc⟩ := energy_conns_single n margin main lm r hm d1
  obtain ⟨t1, t2, t3, t4, t5, t6⟩ := targets_ne n
  refine ⟨b, hb, ?_⟩
  rw [hc]
  by_cases hmg : margin = 0 <;>
    simp [fuelOf, FuelIn.reserveBurned, input, pick, hmg, ee, List.find?, t1, t2, t3, t4, t5, t6, Ne.symm t6]

/-- The burn of a chain of phases that start where the one before ends is the difference of its ends. -/
theorem chain_burn (start stop : String → ℝ) : ∀ (r : String) (rs : List String),
    List.IsChain (fun p q => start q = stop p) (r :: rs) →
    ((r :: rs).map fun p => start p - stop p).sum = start r - stop ((r :: rs).getLast (by simp))
  | r, [], _ => by simp
  | r, q :: rs, h => by
    have h2 := List.isChain_cons_cons.mp h
    have ih := chain_burn start stop q rs h2.2
    rw [List.map_cons, List.sum_cons, ih, h2.1, List.getLast_cons_cons]
    ring

/-- With no or at least two reserve phases, a mission that meets the fuel constraint carries the fuel burned up to the end
of the main mission, the margin of it, the additional fuel and all fuel burned in the reserve phases. -/
theorem wired_fuel_closes_partial (n : String) (margin : ℚ) (main : List String) (lm r0 q : String) (rs : List String)
    (hn : (main ++ r0 :: q :: rs).Nodup) (hm : main.getLast? = some lm)
    (hist : String → String → List ℝ) (start stop : String → ℝ)
    (hstart : ∀ p, (hist p "mass").head? = some (start p)) (hstop : ∀ p, (hist p "mass").getLast? = some (stop p))
    (hch : List.IsChain (fun p q => start q = stop p) (r0 :: q :: rs))
    (gross additional totalFuel capacity unusable taxiIn : ℝ) :
    ∃ b, energyBus n margin main (r0 :: q :: rs) = .ok b ∧
      let f := fuelOf n margin (connectBus b) (r0 :: q :: rs) hist gross additional totalFuel capacity unusable taxiIn
      (f.massResidual = 0 ↔ totalFuel = (gross - stop lm) + margin / 100 * (gross - stop lm) + additional +
        ((r0 :: q :: rs).map fun p => start p - stop p).sum) := by
  have hlast : (r0 :: q :: rs).getLast? = some ((r0 :: q :: rs).getLast (by simp)) := List.getLast?_eq_some_getLast _
  obtain ⟨b, hb, h1, h2, h3, h4, h5⟩ := wired_many n margin main (r0 :: q :: rs) lm r0 _ hn hm rfl hlast (by simp) hist
    (stop lm) (start r0) (stop ((r0 :: q :: rs).getLast (by simp))) (hstop lm) (hstart r0) (hstop _) gross additional
    totalFuel capacity unusable taxiIn
  refine ⟨b, hb, ?_⟩
  dsimp only at h1 h2 h3 h4 h5 ⊢
  rw [chain_burn start stop r0 (q :: rs) hch]
  generalize hf : fuelOf n margin (connectBus b) (r0 :: q :: rs) hist gross additional totalFuel capacity unusable taxiIn
    = f at *
  have g1 : f.gross = gross := by rw [← hf]; rfl
  have g2 : f.margin = margin := by rw [← hf]; rfl
  have g3 : f.additional = additional := by rw [← hf]; rfl
  have g4 : f.totalFuel = totalFuel := by rw [← hf]; rfl
  have hmm : f.marginMass = margin / 100 * (gross - stop lm) := by
    unfold FuelIn.marginMass
    rw [g1, g2]
    by_cases hz : margin = 0
    · simp [hz]
    · rw [if_pos (by exact_mod_cast hz), h2 hz]
  unfold FuelIn.massResidual FuelIn.totalReserve FuelIn.burned FuelIn.reserveBurned
  rw [hmm, g1, g3, g4, h1, h4, h5, h3]
  simp only [if_true]
  constructor <;> intro h <;> linarith

/-- A mission with one reserve phase that burns 1000 lbm of reserve: the constraint is met with a tank that holds less
than the fuel of the main mission. -/
theorem single_reserve_fuel_violated : ∃ b, energyBus "energy" 0 ["cruise"] ["reserve"] = .ok b ∧
    let f := fuelOf "energy" 0 (connectBus b) ["reserve"]
      (fun p _ => if p = "cruise" then [150000, 120000] else [120000, 119000]) 150000 0 (-88999) 50000 0 0
    f.massResidual = 0 ∧ f.burned = 30000 ∧ f.totalFuel < f.burned := by
  obtain ⟨b, hb, hc⟩ := energy_conns_single "energy" 0 ["cruise"] "cruise" "reserve" rfl (by decide)
  refine ⟨b, hb, ?_⟩
  dsimp only
  rw [hc]
  obtain ⟨t1, t2, t3, t4, t5, t6⟩ := targets_ne "energy"
  refine ⟨?_, ?_, ?_⟩ <;>
    (simp only [fuelOf, FuelIn.massResidual, FuelIn.burned, FuelIn.totalReserve, FuelIn.marginMass,
      FuelIn.reserveBurned, input, pick, List.find?, t1, t2, t3, t5, t6, Ne.symm t6, ne_eq, not_true_eq_false,
      if_false, List.append_nil, List.cons_append, List.nil_append, decide_true, decide_false,
      show ("reserve" = "cruise") = False by decide]
     norm_num)

/-! ## C84 Bus variables of the pre mission -/

theorem lastPart_plain (s : String) (h : '.' ∉ s.toList) : lastPart s = s := by
  unfold lastPart
  have : s.toList.reverse.takeWhile (fun c => decide (c ≠ '.')) = s.toList.reverse := by
    rw [← List.append_nil s.toList.reverse, List.takeWhile_append_of_pos]
    · simp
    intro c hc
    simp only [List.mem_reverse] at hc
    simp only [ne_eq, decide_not, Bool.not_eq_eq_eq_not, Bool.not_true, decide_eq_false_iff_not]
    rintro rfl
    exact h hc
  rw [this, List.reverse_reverse, String.ofList_toList]

/-- Only the text after the last point is the name of the parameter. -/
theorem lastPart_dotted (a b : String) (h : '.' ∉ b.toList) : lastPart (a ++ "." ++ b) = b := by
  unfold lastPart
  have e : (a ++ "." ++ b).toList = a.toList ++ '.' :: b.toList := by simp
  rw [e, List.reverse_append, List.reverse_cons, List.append_assoc, List.takeWhile_append_of_pos]
  · simp
  · intro c hc
    simp only [List.mem_reverse] at hc
    simp only [ne_eq, decide_not, Bool.not_eq_eq_eq_not, Bool.not_true, decide_eq_false_iff_not]
    rintro rfl
    exact h hc

/-- The parameters that a bus variable stands for. -/
def ParamOf (md all : List String) (b : PreBus) (x : Param) : Prop :=
  ∃ n ∈ b.mission.getD [], n ∉ md ∧ ∃ u, b.units = some u ∧
    ((∃ ps, b.phases = some ps ∧ ∃ p ∈ ps, x = ⟨some p, lastPart n, n, [p], u⟩) ∨
     (b.phases = none ∧ x = ⟨none, lastPart n, n, all, u⟩))

/-- The promoted name of a parameter. -/
def paramPath (x : Param) : String := match x.phase with
  | some p => "traj." ++ p ++ ".parameters:" ++ x.name
  | none => "traj.parameters:" ++ x.name

theorem inPhases_ok (all : List String) (b : PreBus) (n u : String) : ∀ (ps : List String) (r : Bus),
    inPhases all b n u ps = .ok r ↔ (∀ p ∈ ps, p ∈ all) ∧ r = ⟨ps.map fun p => ⟨some p, lastPart n, n, [p], u⟩,
      ps.map fun p => ⟨"pre_mission." ++ b.name, "traj." ++ p ++ ".parameters:" ++ lastPart n, b.src⟩⟩
  | [], r => by
    simp only [inPhases, Except.ok.injEq, List.not_mem_nil, false_implies, implies_true, List.map_nil, true_and]
    exact eq_comm
  | p :: ps, r => by
    unfold inPhases
    by_cases hp : p ∈ all
    · rw [if_pos hp]
      cases h : inPhases all b n u ps with
      | error e =>
        have hn : ¬ ∀ q ∈ ps, q ∈ all := fun hq => by
          have := (inPhases_ok all b n u ps _).mpr ⟨hq, rfl⟩
          rw [h] at this; cases this
        constructor
        · intro h; cases h
        · rintro ⟨h1, -⟩
          exact absurd (fun q hq => h1 q (List.mem_cons_of_mem _ hq)) hn
      | ok t =>
        obtain ⟨h1, rfl⟩ := (inPhases_ok all b n u ps t).mp h
        simp only [bind, Except.bind, Except.ok.injEq, Bus.add, List.map_cons, List.cons_append, List.nil_append]
        constructor
        · rintro rfl
          exact ⟨fun q hq => (List.mem_cons.mp hq).elim (fun e => e ▸ hp) (h1 q), rfl⟩
        · rintro ⟨-, rfl⟩; rfl
    · rw [if_neg hp]
      constructor
      · intro h; cases h
      · rintro ⟨h1, -⟩
        exact absurd (h1 p (by simp)) hp

theorem missionName_ok {md all : List String} {b : PreBus} {n : String} {r : Bus}
    (h : missionName md all b n = .ok r) :
    (∀ x, x ∈ r.params ↔ n ∉ md ∧ ∃ u, b.units = some u ∧
      ((∃ ps, b.phases = some ps ∧ ∃ p ∈ ps, x = ⟨some p, lastPart n, n, [p], u⟩) ∨
        (b.phases = none ∧ x = ⟨none, lastPart n, n, all, u⟩))) ∧
    (∀ l, l ∈ r.links ↔ ∃ x ∈ r.params, l = ⟨"pre_mission." ++ b.name, paramPath x, b.src⟩) := by
  unfold missionName at h
  by_cases hn : n ∈ md
  · rw [if_pos hn] at h; cases h; simp [hn]
  · rw [if_neg hn] at h
    cases hu : b.units with
    | none => rw [hu] at h; cases h
    | some u =>
      rw [hu] at h
      cases hp : b.phases with
      | none => rw [hp] at h; cases h; simp [hn, paramPath]
      | some ps =>
        rw [hp] at h
        obtain ⟨-, rfl⟩ := (inPhases_ok all b n u ps r).mp h
        constructor
        · intro x
          simp only [List.mem_map, hn, not_false_eq_true, true_and, Option.some.injEq, exists_eq_left', reduceCtorEq,
            false_and, or_false]
          constructor
          · rintro ⟨p, hp, rfl⟩; exact ⟨p, hp, rfl⟩
          · rintro ⟨p, hp, rfl⟩; exact ⟨p, hp, rfl⟩
        · intro l
          simp only [List.mem_map]
          constructor
          · rintro ⟨p, hp, rfl⟩; exact ⟨_, ⟨p, hp, rfl⟩, rfl⟩
          · rintro ⟨x, ⟨p, hp, rfl⟩, rfl⟩; exact ⟨p, hp, rfl⟩

theorem missionNames_ok {md all : List String} {b : PreBus} : ∀ {ns : List String} {r : Bus},
    missionNames md all b ns = .ok r →
    (∀ x, x ∈ r.params ↔ ∃ n ∈ ns, n ∉ md ∧ ∃ u, b.units = some u ∧
      ((∃ ps, b.phases = some ps ∧ ∃ p ∈ ps, x = ⟨some p, lastPart n, n, [p], u⟩) ∨
        (b.phases = none ∧ x = ⟨none, lastPart n, n, all, u⟩))) ∧
    (∀ l, l ∈ r.links ↔ ∃ x ∈ r.params, l = ⟨"pre_mission." ++ b.name, paramPath x, b.src⟩)
  | [], r, h => by cases h; simp
  | n :: ns, r, h => by
    unfold missionNames at h
    cases h1 : missionName md all b n with
    | error e => rw [h1] at h; cases h
    | ok x =>
      cases h2 : missionNames md all b ns with
      | error e => rw [h1, h2] at h; cases h
      | ok y =>
        rw [h1, h2] at h
        cases h
        obtain ⟨a1, a2⟩ := missionName_ok h1
        obtain ⟨b1, b2⟩ := missionNames_ok h2
        constructor
        · intro z
          simp only [Bus.add, List.mem_append, a1, b1, List.mem_cons, exists_eq_or_imp]
        · intro l
          simp only [Bus.add, List.mem_append, a2, b2]
          constructor
          · rintro (⟨x, hx, e⟩ | ⟨x, hx, e⟩)
            · exact ⟨x, .inl hx, e⟩
            · exact ⟨x, .inr hx, e⟩
          · rintro ⟨x, hx | hx, e⟩
            · exact .inl ⟨x, hx, e⟩
            · exact .inr ⟨x, hx, e⟩

/-- Exactly the parameters of the bus variables are added, and exactly they and the post mission names are connected to
the source of their bus variable. -/
theorem addBus_spec {md all : List String} : ∀ {bs : List PreBus} {r : Bus}, addBus md all bs = .ok r →
    (∀ x, x ∈ r.params ↔ ∃ b ∈ bs, ParamOf md all b x) ∧
    (∀ l, l ∈ r.links ↔ ∃ b ∈ bs, l.source = "pre_mission." ++ b.name ∧ l.src = b.src ∧
      ((∃ x, ParamOf md all b x ∧ l.target = paramPath x) ∨ l.target ∈ b.post.getD []))
  | [], r, h => by cases h; simp
  | b :: bs, r, h => by
    unfold addBus oneBus at h
    cases h1 : missionNames md all b (b.mission.getD []) with
    | error e => rw [h1] at h; cases h
    | ok x =>
      cases h2 : addBus md all bs with
      | error e => rw [h1, h2] at h; cases h
      | ok y =>
        rw [h1, h2] at h
        cases h
        obtain ⟨a1, a2⟩ := missionNames_ok h1
        obtain ⟨b1, b2⟩ := addBus_spec h2
        constructor
        · intro z
          simp only [Bus.add, List.mem_append, a1, b1, List.mem_cons, exists_eq_or_imp, List.append_nil, ParamOf]
        · rintro ⟨so, ta, sr⟩
          simp only [Bus.add, List.mem_append, a2, b2, List.mem_cons, exists_eq_or_imp, List.mem_map, a1]
          apply or_congr_left
          constructor
          · rintro (⟨x, hx, e⟩ | ⟨t, ht, e⟩)
            · cases e; exact ⟨rfl, rfl, .inl ⟨x, hx, rfl⟩⟩
            · cases e; exact ⟨rfl, rfl, .inr ht⟩
          · rintro ⟨e1, e2, ⟨x, hx, e3⟩ | ht⟩
            · exact .inl ⟨x, hx, by rw [e1, e2, e3]⟩
            · exact .inr ⟨ta, ht, by rw [e1, e2]⟩

theorem missionName_total (md all : List String) (b : PreBus) (n : String) :
    (∃ r, missionName md all b n = .ok r) ↔
      (n ∉ md → b.units.isSome ∧ ∀ ps, b.phases = some ps → ∀ p ∈ ps, p ∈ all) := by
  unfold missionName
  by_cases hn : n ∈ md
  · simp [hn]
  · rw [if_neg hn]
    cases hu : b.units with
    | none => simp [hn]
    | some u =>
      cases hp : b.phases with
      | none => simp
      | some ps =>
        simp only [inPhases_ok, hn, not_false_eq_true, Option.isSome_some, Option.some.injEq, forall_eq', true_and,
          forall_const]
        exact ⟨fun ⟨r, h, _⟩ => h, fun h => ⟨_, h, rfl⟩⟩

theorem missionNames_total (md all : List String) (b : PreBus) : ∀ ns : List String,
    (∃ r, missionNames md all b ns = .ok r) ↔ ∀ n ∈ ns, ∃ r, missionName md all b n = .ok r
  | [] => by simp [missionNames]
  | n :: ns => by
    have ih := missionNames_total md all b ns
    unfold missionNames
    cases h1 : missionName md all b n with
    | error e =>
      constructor
      · rintro ⟨r, h⟩; cases h
      · intro h; obtain ⟨r, hr⟩ := h n (by simp); rw [h1] at hr; cases hr
    | ok x =>
      cases h2 : missionNames md all b ns with
      | error e =>
        constructor
        · rintro ⟨r, h⟩; cases h
        · intro h
          have := ih.mpr fun m hm => h m (List.mem_cons_of_mem _ hm)
          rw [h2] at this
          obtain ⟨r, hr⟩ := this; cases hr
      | ok y =>
        constructor
        · intro _ m hm
          rcases List.mem_cons.mp hm with rfl | hm
          · exact ⟨x, h1⟩
          · exact ih.mp ⟨y, h2⟩ m hm
        · intro _; exact ⟨_, rfl⟩

/-- Every bus variable with a new mission name needs units, and its phases must exist; nothing else is refused. -/
theorem addBus_total (md all : List String) : ∀ bs : List PreBus, (∃ r, addBus md all bs = .ok r) ↔
    ∀ b ∈ bs, ∀ n ∈ b.mission.getD [], n ∉ md → b.units.isSome ∧ ∀ ps, b.phases = some ps → ∀ p ∈ ps, p ∈ all
  | [] => by simp [addBus]
  | b :: bs => by
    have ih := addBus_total md all bs
    have hb : (∃ r, missionNames md all b (b.mission.getD []) = .ok r) ↔
        ∀ n ∈ b.mission.getD [], n ∉ md → b.units.isSome ∧ ∀ ps, b.phases = some ps → ∀ p ∈ ps, p ∈ all := by
      rw [missionNames_total]
      exact forall₂_congr fun n _ => missionName_total md all b n
    simp only [List.mem_cons, forall_eq_or_imp]
    rw [← hb, ← ih]
    rw [addBus, oneBus]
    cases h1 : missionNames md all b (b.mission.getD []) with
    | error e => exact ⟨fun ⟨r, h⟩ => by (cases h), fun ⟨⟨r, h⟩, _⟩ => by (cases h)⟩
    | ok x =>
      cases h2 : addBus md all bs with
      | error e => exact ⟨fun ⟨r, h⟩ => by (cases h), fun ⟨_, ⟨r, h⟩⟩ => by (cases h)⟩
      | ok y => exact ⟨fun _ => ⟨⟨_, rfl⟩, ⟨_, rfl⟩⟩, fun _ => ⟨_, rfl⟩⟩

/-- A mission name that is in the metadata is neither added nor connected, without a message. -/
theorem metadata_name_violated (md all : List String) (b : PreBus) (h : ∀ n ∈ b.mission.getD [], n ∈ md)
    (hp : b.post = none) : addBus md all [b] = .ok ⟨[], []⟩ := by
  have h1 : ∀ ns : List String, (∀ n ∈ ns, n ∈ md) → missionNames md all b ns = .ok ⟨[], []⟩ := by
    intro ns hn
    induction ns with
    | nil => rfl
    | cons n ns ih =>
      unfold missionNames missionName
      rw [if_pos (hn n (by simp)), ih fun m hm => hn m (List.mem_cons_of_mem _ hm)]
      rfl
  unfold addBus oneBus
  rw [h1 _ h]
  simp [addBus, hp, bind, Except.bind, Bus.add]

/-- Two subsystems whose variables differ only before the point get one parameter with two sources. -/
theorem same_parameter_violated : ∃ r, addBus [] ["cruise"]
    [⟨"left", some ["motor1.torque"], none, none, some "N*m", none⟩,
     ⟨"right", some ["motor2.torque"], none, none, some "N*m", none⟩] = .ok r ∧
    ∃ l ∈ r.links, ∃ k ∈ r.links, l.target = k.target ∧ l.source ≠ k.source := by
  refine ⟨_, rfl, ⟨"pre_mission.left", "traj.parameters:torque", none⟩, by decide +kernel,
    ⟨"pre_mission.right", "traj.parameters:torque", none⟩, by decide +kernel, rfl, by decide⟩

example : ∃ r, addBus ["aircraft:x"] ["climb", "cruise"]
    [⟨"cell", some ["bat.volume", "aircraft:x"], some ["report.v"], some ["cruise"], some "L", none⟩] = .ok r ∧
    r.params = [⟨some "cruise", "volume", "bat.volume", ["cruise"], "L"⟩] ∧
    r.links = [⟨"pre_mission.cell", "traj.cruise.parameters:volume", none⟩, ⟨"pre_mission.cell", "report.v", none⟩] := by
  refine ⟨_, rfl, by decide +kernel, by decide +kernel⟩

/-! ## C85 Masses of external subsystems -/

/-- The mass of the external subsystems is the sum of the masses they name, when the names stay different. -/
theorem externalMass_sum_partial (val : String → ℚ) (names : List String)
    (h : ∀ a ∈ names, ∀ b ∈ names, flat a = flat b → a = b) :
    externalMass val names = (names.map val).sum := by
  unfold externalMass
  congr 1
  apply List.map_congr_left
  intro n hn
  cases hf : names.find? (fun o => decide (flat o = flat n)) with
  | none =>
    rw [List.find?_eq_none] at hf
    exact absurd (by simp) (hf n hn)
  | some o =>
    have h1 := List.mem_of_find?_eq_some hf
    have h2 := List.find?_some hf
    simp only [decide_eq_true_eq] at h2
    rw [h o h1 n hn h2]

/-- Names without underscores stay different. -/
theorem flat_injective {a b : String} (ha : '_' ∉ a.toList) (hb : '_' ∉ b.toList) (h : flat a = flat b) : a = b := by
  have key : ∀ xs ys : List Char, '_' ∉ xs → '_' ∉ ys →
      (xs.map fun c => if c = ':' then '_' else c) = (ys.map fun c => if c = ':' then '_' else c) → xs = ys := by
    intro xs
    induction xs with
    | nil => intro ys _ _ h; cases ys with
      | nil => rfl
      | cons y ys => cases h
    | cons x xs ih =>
      intro ys hx hy h
      cases ys with
      | nil => cases h
      | cons y ys =>
        simp only [List.map_cons, List.cons.injEq] at h
        simp only [List.mem_cons, not_or] at hx hy
        have e : x = y := by
          have h1 := h.1
          by_cases c1 : x = ':' <;> by_cases c2 : y = ':'
          · rw [c1, c2]
          · rw [if_pos c1, if_neg c2] at h1; exact absurd h1 hy.1
          · rw [if_neg c1, if_pos c2] at h1; exact absurd h1.symm hx.1
          · rw [if_neg c1, if_neg c2] at h1; exact h1
        rw [e, ih ys hx.2 hy.2 h.2]
  have h1 := congrArg String.toList h
  simp only [flat, String.toList_ofList] at h1
  exact String.toList_injective (key _ _ ha hb h1)

/-- The order of the subsystems does not matter. -/
theorem externalMass_perm (val : String → ℚ) {a b : List String} (hp : a.Perm b)
    (h : ∀ x ∈ a, ∀ y ∈ a, flat x = flat y → x = y) : externalMass val a = externalMass val b := by
  rw [externalMass_sum_partial val a h, externalMass_sum_partial val b fun x hx y hy =>
    h x (hp.mem_iff.mpr hx) y (hp.mem_iff.mpr hy)]
  exact (hp.map val).sum_eq

/-- A mass that two subsystems name is counted twice. -/
theorem externalMass_twice_violated (val : String → ℚ) (n : String) : externalMass val [n, n] = 2 * val n := by
  rw [externalMass_sum_partial val [n, n] (by simp)]
  simp
  ring

/-- Names that differ only in `:` and `_` give twice the first mass. -/
theorem externalMass_collision_violated (val : String → ℚ) :
    externalMass val ["aircraft:pack_mass", "aircraft:pack:mass"] = 2 * val "aircraft:pack_mass" := by
  have e : flat "aircraft:pack_mass" = flat "aircraft:pack:mass" := by decide +kernel
  simp [externalMass, List.find?, e]
  ring

example : externalMass (fun n => if n = "a:m" then 3 else 4) ["a:m", "b:m"] = 7 := by
  rw [externalMass_sum_partial _ _ (by decide +kernel)]
  simp
  norm_num

/-! ## C86 Design variables and constraints -/

/-- The post mission constraints hold exactly when the fuel is used up (or suffices, for the solved missions), every target
distance is flown and every duration of a Breguet phase is kept. -/
theorem postCons_iff (m : Method) (ps : List PhaseGoal) (f : Flown) : (∀ c ∈ postCons m ps, c.holds f) ↔
    (if m = .solved2Dof then 0 ≤ f.residual else f.residual = 0) ∧
    ∀ p ∈ ps, (∀ d, p.distance = some d → (f.dist p.name).2 - (f.dist p.name).1 = d) ∧
      (p.breguet = true → ∀ t, p.duration = some t → (f.time p.name).2 - (f.time p.name).1 = t) := by
  unfold postCons
  simp only [List.mem_cons, forall_eq_or_imp, List.mem_flatMap, forall_exists_index, and_imp]
  apply and_congr
  · by_cases h : m = .solved2Dof <;> simp [h, Con.holds]
  · constructor
    · intro h p hp
      constructor
      · intro d hd
        have := h (.distance p.name d) p hp (by simp [hd])
        simp only [Con.holds] at this
        linarith
      · intro hb t ht
        have := h (.duration p.name t) p hp (by simp [ht, hb])
        simp only [Con.holds] at this
        linarith
    · intro h c p hp hc
      obtain ⟨h1, h2⟩ := h p hp
      rcases List.mem_append.mp hc with hc | hc
      · cases hd : p.distance with
        | none => rw [hd] at hc; cases hc
        | some d =>
          rw [hd] at hc
          simp only [List.mem_singleton] at hc
          subst hc
          have := h1 d hd
          simp only [Con.holds]
          linarith
      · cases ht : p.duration with
        | none => rw [ht] at hc; cases hc
        | some t =>
          rw [ht] at hc
          by_cases hb : p.breguet = true
          · simp only [hb, if_true, List.mem_singleton] at hc
            subst hc
            have := h2 hb t ht
            simp only [Con.holds]
            linarith
          · simp [hb] at hc

/-- The goals of the phases are met. -/
def Goals (ps : List PhaseGoal) (f : Flown) : Prop :=
  ∀ p ∈ ps, (∀ d, p.distance = some d → (f.dist p.name).2 - (f.dist p.name).1 = d) ∧
    (p.breguet = true → ∀ t, p.duration = some t → (f.time p.name).2 - (f.time p.name).1 = t)

theorem names_ne : missionGross ≠ designGross := by decide

/-- A sizing problem: the aircraft is as heavy as designed, uses up its fuel, meets all goals and, when a target is given,
flies the target range. -/
theorem sizing_feasible_iff (m : Method) (hm : m = .energyState ∨ m = .twoDof) (o r : Bool) (mtow kg : ℚ)
    (ps : List PhaseGoal) (f : Flown) : Feasible m (some .sizing) o r mtow kg ps f ↔
      10 ≤ f.design ∧ f.design = f.gross ∧ (r = true → f.range = f.target) ∧ f.residual = 0 ∧ Goals ps f := by
  have hs : m ≠ .solved2Dof := by rcases hm with rfl | rfl <;> decide
  have hd : designVars m (some .sizing) o r mtow kg =
      ([⟨designGross, 10, none, 175000⟩, ⟨missionGross, 10, none, 175000⟩], .gtow :: (if r then [.range] else [])) := by
    rcases hm with rfl | rfl <;> rfl
  unfold Feasible
  rw [postCons_iff, hd, if_neg hs]
  have hr : f.target - f.range = 0 ↔ f.range = f.target := ⟨fun h => by linarith, fun h => by linarith⟩
  cases r <;>
    simp only [List.mem_cons, List.not_mem_nil, or_false, forall_eq_or_imp, forall_eq, DV.holds, Flown.value, names_ne,
      if_true, if_false, reduceCtorEq, false_implies, implies_true, and_true, Con.holds, Goals, true_implies, hr,
      Bool.false_eq_true]
  · constructor
    · rintro ⟨⟨a, b⟩, c, d, e⟩; exact ⟨a, c, trivial, d, e⟩
    · rintro ⟨a, c, -, d, e⟩; exact ⟨⟨a, c ▸ a⟩, c, d, e⟩
  · constructor
    · rintro ⟨⟨a, b⟩, ⟨c, g⟩, d, e⟩; exact ⟨a, c, g, d, e⟩
    · rintro ⟨a, c, g, d, e⟩; exact ⟨⟨a, c ▸ a⟩, ⟨c, g⟩, d, e⟩

/-- A fuel problem: the target range is flown with a gross mass up to the design gross mass. -/
theorem minFuel_feasible_iff (m : Method) (hm : m = .energyState ∨ m = .twoDof) (o r : Bool) (mtow kg : ℚ)
    (ps : List PhaseGoal) (f : Flown) : Feasible m (some .minFuel) o r mtow kg ps f ↔
      10 ≤ f.gross ∧ f.gross ≤ mtow ∧ f.range = f.target ∧ f.residual = 0 ∧ Goals ps f := by
  have hs : m ≠ .solved2Dof := by rcases hm with rfl | rfl <;> decide
  have hd : designVars m (some .minFuel) o r mtow kg = ([⟨missionGross, 10, some mtow, mtow⟩], [.range]) := by
    rcases hm with rfl | rfl <;> rfl
  unfold Feasible
  rw [postCons_iff, hd, if_neg hs]
  have hr : f.target - f.range = 0 ↔ f.range = f.target := ⟨fun h => by linarith, fun h => by linarith⟩
  simp only [List.mem_singleton, forall_eq, DV.holds, Flown.value, names_ne, if_false, Con.holds, Goals, hr,
    Option.some.injEq, forall_eq', and_assoc]

/-- A range problem: the fuel is used up and all goals are met; range and gross mass are free and given. -/
theorem maxRange_feasible_iff (m : Method) (hm : m = .energyState ∨ m = .twoDof) (o r : Bool) (mtow kg : ℚ)
    (ps : List PhaseGoal) (f : Flown) : Feasible m (some .maxRange) o r mtow kg ps f ↔ f.residual = 0 ∧ Goals ps f := by
  have hs : m ≠ .solved2Dof := by rcases hm with rfl | rfl <;> decide
  have hd : designVars m (some .maxRange) o r mtow kg = ([], []) := by
    rcases hm with rfl | rfl <;> rfl
  unfold Feasible
  rw [postCons_iff, hd, if_neg hs]
  simp [Goals]

/-- One mission of several: the target range is flown and the design is at least as heavy as the mission. -/
theorem multi_feasible_iff (m : Method) (hm : m = .energyState ∨ m = .twoDof) (o r : Bool) (mtow kg : ℚ)
    (ps : List PhaseGoal) (f : Flown) : Feasible m (some .multi) o r mtow kg ps f ↔
      10 ≤ f.gross ∧ f.gross ≤ 900000 ∧ f.range = f.target ∧ f.gross ≤ f.design ∧ f.residual = 0 ∧ Goals ps f := by
  have hs : m ≠ .solved2Dof := by rcases hm with rfl | rfl <;> decide
  have hd : designVars m (some .multi) o r mtow kg =
      ([⟨missionGross, 10, some 900000, 175000⟩], [.range, .heavier (kg / 4)]) := by
    rcases hm with rfl | rfl <;> rfl
  unfold Feasible
  rw [postCons_iff, hd, if_neg hs]
  have hr : f.target - f.range = 0 ↔ f.range = f.target := ⟨fun h => by linarith, fun h => by linarith⟩
  simp only [List.mem_cons, List.not_mem_nil, or_false, forall_eq_or_imp, forall_eq, DV.holds, Flown.value, names_ne,
    if_false, Con.holds, Goals, hr, sub_nonneg, Option.some.injEq, forall_eq', and_assoc]

/-- With several missions the design is at least as heavy as the heaviest of them. -/
theorem multi_heaviest (m : Method) (hm : m = .energyState ∨ m = .twoDof) (o r : Bool) (mtow kg : ℚ)
    (ms : List (List PhaseGoal × Flown)) (design : ℚ)
    (h : ∀ x ∈ ms, x.2.design = design ∧ Feasible m (some .multi) o r mtow kg x.1 x.2) :
    ∀ x ∈ ms, x.2.gross ≤ design := by
  intro x hx
  obtain ⟨h1, h2⟩ := h x hx
  rw [multi_feasible_iff m hm] at h2
  rw [← h1]
  exact h2.2.2.2.1

/-- But it may be heavier than all of them. -/
theorem multi_equal_violated : ∃ f : Flown, Feasible .energyState (some .multi) false true 200000 90000 [] f ∧
    f.gross < f.design :=
  ⟨⟨300000, 150000, 1000, 1000, 0, fun _ => (0, 0), fun _ => (0, 0)⟩, by
    rw [multi_feasible_iff _ (.inl rfl)]; norm_num [Goals], by norm_num⟩

/-- The documented upper bound of 900000 lbm is absent for sizing. -/
theorem sizing_upper_violated : ∃ f : Flown, Feasible .energyState (some .sizing) false true 200000 90000 [] f ∧
    900000 < f.design :=
  ⟨⟨1000000, 1000000, 1000, 1000, 0, fun _ => (0, 0), fun _ => (0, 0)⟩, by
    rw [sizing_feasible_iff _ (.inl rfl)]; norm_num [Goals], by norm_num⟩

/-- For several missions it excludes heavier aircraft that a sizing problem allows. -/
theorem multi_upper_violated (m : Method) (hm : m = .energyState ∨ m = .twoDof) (o r : Bool) (mtow kg : ℚ)
    (ps : List PhaseGoal) (f : Flown) (h : 900000 < f.gross) : ¬ Feasible m (some .multi) o r mtow kg ps f := by
  rw [multi_feasible_iff m hm]
  rintro ⟨-, h2, -⟩
  linarith

/-- Without a target range the fuel problem still forces the range to the design range. -/
theorem minFuel_range_violated (m : Method) (hm : m = .energyState ∨ m = .twoDof) (o : Bool) (mtow kg : ℚ)
    (ps : List PhaseGoal) (f : Flown) (h : f.range ≠ f.target) : ¬ Feasible m (some .minFuel) o false mtow kg ps f := by
  rw [minFuel_feasible_iff m hm]
  rintro ⟨-, -, h2, -⟩
  exact h h2

/-- The duration of a phase that is not of Breguet type is not constrained here. -/
theorem duration_free (m : Method) (ps : List PhaseGoal) (h : ∀ p ∈ ps, p.breguet = false) (f : Flown)
    (t : String → ℚ × ℚ) : (∀ c ∈ postCons m ps, c.holds f) ↔ ∀ c ∈ postCons m ps, c.holds { f with time := t } := by
  rw [postCons_iff, postCons_iff]
  apply and_congr Iff.rfl
  refine forall₂_congr fun p hp => and_congr Iff.rfl ?_
  simp [h p hp]

/-- Solved missions ignore the kind of problem, the target range and the gross mass, and allow surplus fuel. -/
theorem solved_feasible_iff (p : Option Problem) (o r : Bool) (mtow kg : ℚ) (ps : List PhaseGoal) (f : Flown) :
    Feasible .solved2Dof p o r mtow kg ps f ↔
      (o = true → 10 ≤ f.design ∧ f.design ≤ 900000) ∧ 0 ≤ f.residual ∧ Goals ps f := by
  unfold Feasible
  rw [postCons_iff, if_pos rfl]
  cases o <;> simp [designVars, DV.holds, Flown.value, Goals]

example : Feasible .energyState (some .sizing) false true 150000 68000 [⟨"cruise", some 500, some 60, true⟩]
    ⟨150000, 150000, 1000, 1000, 0, fun _ => (100, 600), fun _ => (20, 80)⟩ := by
  rw [sizing_feasible_iff _ (.inl rfl)]
  simp only [Goals]
  norm_num

end Verif.Wiring
