import Verif.Model.InitialGuess
import Verif.Model.FlightPhase
import Mathlib.Tactic.Linarith
import Mathlib.Tactic.FieldSimp
import Mathlib.Tactic.Ring
import Mathlib.Tactic.Positivity
import Mathlib.Tactic.NormNum
import Mathlib.Tactic.Push

/-!
# Properties of the initial guesses of the phases (C91)
-/

namespace Verif.InitGuess
open Verif.PhaseInfo (TimeIn timeGuess)

/-! ## C91 Initial guesses reach their variables -/

/-- The value a destination has in the end: that of the last call. -/
def lastVal (cs : List Call) (d : Dest) : Option (SV × String) :=
  (cs.reverse.find? (fun c => decide (c.dest = d))).map fun c => (c.val, c.units)

/-- The keys of a Python dictionary are distinct. -/
def IsDict (g : List Guess) : Prop := (g.map (·.key)).Nodup

private theorem lastVal_append (cs ds : List Call) (d : Dest) :
    lastVal (cs ++ ds) d = (lastVal ds d).or (lastVal cs d) := by
  simp only [lastVal, List.reverse_append, List.find?_append]
  cases List.find? (fun c => decide (c.dest = d)) ds.reverse <;> simp

private theorem lastVal_none {cs : List Call} {d : Dest} (h : ∀ c ∈ cs, c.dest ≠ d) : lastVal cs d = none := by
  simp only [lastVal, Option.map_eq_none_iff, List.find?_eq_none, decide_eq_true_eq, List.mem_reverse]
  exact h

private theorem lastVal_single (c : Call) : lastVal [c] c.dest = some (c.val, c.units) := by
  simp [lastVal]

/-! ### Distribution over the phase -/

/-- The positions of the values of a guess run evenly from -1 to 1. -/
theorem linspace_spec (n : ℕ) (hn : 2 ≤ n) :
    (linspace n).length = n ∧ (linspace n)[0]? = some (-1 : ℚ) ∧ (linspace n)[n - 1]? = some (1 : ℚ) ∧
      (∀ i x y, (linspace n)[i]? = some x → (linspace n)[i + 1]? = some y → y - x = 2 / ((n : ℚ) - 1)) ∧
      ∀ x ∈ linspace n, -1 ≤ x ∧ x ≤ 1 := by
  have h2 : (2 : ℚ) ≤ n := by exact_mod_cast hn
  have hpos : (0 : ℚ) < (n : ℚ) - 1 := by linarith
  refine ⟨by simp [linspace], ?_, ?_, ?_, ?_⟩
  · simp only [linspace, List.getElem?_map, List.getElem?_range (show 0 < n by omega), Option.map_some,
      Option.some.injEq]
    simp
  · have h1 : n - 1 < n := by omega
    simp only [linspace, List.getElem?_map, List.getElem?_range h1, Option.map_some, Option.some.injEq]
    have hc : ((n - 1 : ℕ) : ℚ) = (n : ℚ) - 1 := by
      rw [Nat.cast_sub (by omega)]; simp
    rw [hc, mul_div_assoc, div_self hpos.ne']; norm_num
  · intro i x y hx hy
    have hi : i + 1 < n := by
      by_contra hc
      rw [List.getElem?_eq_none (by simp [linspace]; omega)] at hy
      cases hy
    simp only [linspace, List.getElem?_map, List.getElem?_range hi, List.getElem?_range (show i < n by omega),
      Option.map_some, Option.some.injEq] at hx hy
    subst hx; subst hy
    push_cast
    field_simp
    ring
  · intro x hx
    simp only [linspace, List.mem_map, List.mem_range] at hx
    obtain ⟨i, hi, rfl⟩ := hx
    have hi0 : (0 : ℚ) ≤ i := Nat.cast_nonneg i
    have hi1 : (i : ℚ) + 1 ≤ n := by exact_mod_cast hi
    constructor
    · have : 0 ≤ 2 * (i : ℚ) / ((n : ℚ) - 1) := by positivity
      linarith
    · have : 2 * (i : ℚ) / ((n : ℚ) - 1) ≤ 2 := by
        rw [div_le_iff₀ hpos]; linarith
      linarith

example : linspace 3 = [-1, 0, 1] := by decide +kernel

/-- A guess with several values is interpolated, anything else is passed on; integers are the values refused. -/
theorem processGuess_ok_iff (v : GV) (key : String) :
    (∃ s, processGuess v key = .ok s) ↔ ∀ n, v ≠ .int n := by
  cases v with
  | flt q => simp [processGuess]
  | int n => simp [processGuess]
  | list l =>
    simp only [processGuess]
    split_ifs <;> simp

/-- The guess keeps its values: the interpolation gets exactly the values given, one position for each of them. -/
theorem processGuess_values {v : GV} {key name : String} {xs : List ℚ} {ys : List (Option ℚ)}
    (h : processGuess v key = .ok (.interp name xs ys)) :
    v = .list ys ∧ 2 ≤ ys.length ∧ xs = linspace ys.length ∧ xs.length = ys.length := by
  cases v with
  | flt q => simp [processGuess] at h
  | int n => simp [processGuess] at h
  | list l =>
    simp only [processGuess] at h
    split_ifs at h with h1 h2
    · simp only [Except.ok.injEq, SV.interp.injEq] at h
      obtain ⟨_, hx, hy⟩ := h
      subst hy; subst hx
      exact ⟨rfl, h1, rfl, by simp [linspace]⟩
    · simp only [Except.ok.injEq, SV.interp.injEq] at h
      obtain ⟨_, hx, hy⟩ := h
      subst hy; subst hx
      exact ⟨rfl, h1, rfl, by simp [linspace]⟩
    · simp at h

/-- Single numbers are not changed. -/
theorem processGuess_single (q : ℚ) (key : String) : processGuess (.flt q) key = .ok (.raw (.flt q)) := rfl

/-- "The guess … can either be a float or an array of floats": a whole number raises. -/
theorem processGuess_int_violated (n : ℤ) (key : String) : processGuess (.int n) key = .error .typeError := rfl

private theorem dropWhile_prefix (p : List Char) (hp : ':' ∉ p) (rest : List Char) :
    (p ++ ':' :: rest).dropWhile (· ≠ ':') = ':' :: rest := by
  induction p with
  | nil => simp
  | cons c p ih =>
    have hc : c ≠ ':' := fun hc => hp (hc ▸ List.mem_cons_self ..)
    have hp' : ':' ∉ p := fun hm => hp (List.mem_cons_of_mem _ hm)
    rw [List.cons_append, List.dropWhile_cons, if_pos (by simpa using hc)]
    exact ih hp'

/-- The name used for the interpolation of a control or a state is the key without its first part. -/
theorem stripKey_spec (pre name : String) (hp : ':' ∉ pre.toList) : stripKey (pre ++ ":" ++ name) = name := by
  have h : (pre ++ ":" ++ name).toList = pre.toList ++ ':' :: name.toList := by simp
  simp only [stripKey, h]
  rw [dropWhile_prefix _ hp]
  simp

theorem stripKey_control (name : String) : stripKey ("controls:" ++ name) = name := by
  have := stripKey_spec "controls" name (by decide)
  simpa using this

theorem stripKey_state (name : String) : stripKey ("states:" ++ name) = name := by
  have := stripKey_spec "states" name (by decide)
  simpa using this

/-- A guess for a control gets the name of the control. -/
theorem processGuess_control {l : List (Option ℚ)} (hl : 2 ≤ l.length) (name : String) :
    processGuess (.list l) ("controls:" ++ name) = .ok (.interp name (linspace l.length) l) := by
  have hc : contains "controls:" ("controls:" ++ name) = true := by
    simp only [contains, decide_eq_true_eq, String.toList_append]
    exact (List.prefix_append _ _).isInfix
  simp only [processGuess]
  rw [if_pos (by omega), if_pos (by rw [hc]; rfl), stripKey_control]

/-- The test looks for `controls:` anywhere but only the first part is removed: the name of a variable of a group is
cut in the wrong place. -/
theorem strip_nested_violated : processGuess (.list [some 1, some 2]) "cruise:controls:mach" =
    .ok (.interp "controls:mach" (linspace 2) [some 1, some 2]) := by decide +kernel

/-! ### Energy-state missions -/

private theorem has_iff (g : List Guess) (k : String) : has g k = true ↔ k ∈ g.map (·.key) := by
  simp [has]

private theorem addDefault_spec (g : List Guess) (d : Guess) (hg : IsDict g) :
    g <+: addDefault g d ∧ IsDict (addDefault g d) ∧ d.key ∈ (addDefault g d).map (·.key) ∧
      ∀ x ∈ addDefault g d, x ∈ g ∨ (x = d ∧ d.key ∉ g.map (·.key)) := by
  unfold addDefault
  by_cases h : has g d.key
  · rw [if_pos h]
    exact ⟨List.prefix_rfl, hg, (has_iff _ _).1 h, fun x hx => .inl hx⟩
  · rw [if_neg h]
    have h' : d.key ∉ g.map (·.key) := fun hm => h ((has_iff _ _).2 hm)
    refine ⟨List.prefix_append _ _, ?_, by simp, ?_⟩
    · unfold IsDict
      rw [List.map_append, List.nodup_append]
      refine ⟨hg, by simp, ?_⟩
      intro a ha b hb
      simp only [List.map_cons, List.map_nil, List.mem_singleton] at hb
      subst hb
      exact fun hab => h' (hab ▸ ha)
    · intro x hx
      rcases List.mem_append.1 hx with hx | hx
      · exact .inl hx
      · exact .inr ⟨by simpa using hx, h'⟩

/-- The guesses of the user come first and unchanged; mass, altitude, Mach number and time are there in the end; what
was added has a name the user did not give. -/
theorem fillE_spec {gross : ℚ} {o : EOpts} {g g' : List Guess} (hg : IsDict g) (h : fillE gross o g = .ok g') :
    g <+: g' ∧ IsDict g' ∧ (∀ k ∈ ["mass", "altitude", "mach", "time"], k ∈ g'.map (·.key)) ∧
      ∀ x ∈ g', x ∈ g ∨ (x.key ∉ g.map (·.key) ∧
        (x = ⟨"mass", .flt gross, "lbm"⟩ ∨
          x = ⟨"altitude", .list (endpoints o.altitudeInitial o.altitudeFinal o.altitudeLower), "ft"⟩ ∨
          x = ⟨"mach", .list (endpoints o.machInitial o.machFinal o.machLower), "unitless"⟩ ∨
          ∃ t, timeGuess none o.time = .ok t ∧ x = ⟨"time", .list [t.1, t.2], "s"⟩)) := by
  simp only [fillE] at h
  obtain ⟨p1, d1, m1, x1⟩ := addDefault_spec g ⟨"mass", .flt gross, "lbm"⟩ hg
  set g1 := addDefault g ⟨"mass", .flt gross, "lbm"⟩ with hg1
  obtain ⟨p2, d2, m2, x2⟩ := addDefault_spec g1
    ⟨"altitude", .list (endpoints o.altitudeInitial o.altitudeFinal o.altitudeLower), "ft"⟩ d1
  set g2 := addDefault g1
    ⟨"altitude", .list (endpoints o.altitudeInitial o.altitudeFinal o.altitudeLower), "ft"⟩ with hg2
  obtain ⟨p3, d3, m3, x3⟩ := addDefault_spec g2
    ⟨"mach", .list (endpoints o.machInitial o.machFinal o.machLower), "unitless"⟩ d2
  set g3 := addDefault g2 ⟨"mach", .list (endpoints o.machInitial o.machFinal o.machLower), "unitless"⟩ with hg3
  have sub1 : ∀ k ∈ g.map (·.key), k ∈ g1.map (·.key) := fun k hk => (p1.map _).subset hk
  have sub2 : ∀ k ∈ g1.map (·.key), k ∈ g2.map (·.key) := fun k hk => (p2.map _).subset hk
  have sub3 : ∀ k ∈ g2.map (·.key), k ∈ g3.map (·.key) := fun k hk => (p3.map _).subset hk
  have mem3 : ∀ x ∈ g3, x ∈ g ∨ (x.key ∉ g.map (·.key) ∧
        (x = ⟨"mass", .flt gross, "lbm"⟩ ∨
          x = ⟨"altitude", .list (endpoints o.altitudeInitial o.altitudeFinal o.altitudeLower), "ft"⟩ ∨
          x = ⟨"mach", .list (endpoints o.machInitial o.machFinal o.machLower), "unitless"⟩)) := by
    intro x hx
    rcases x3 x hx with hx | ⟨rfl, hk⟩
    · rcases x2 x hx with hx | ⟨rfl, hk⟩
      · rcases x1 x hx with hx | ⟨rfl, hk⟩
        · exact .inl hx
        · exact .inr ⟨hk, .inl rfl⟩
      · exact .inr ⟨fun hm => hk (sub1 _ hm), .inr (.inl rfl)⟩
    · exact .inr ⟨fun hm => hk (sub2 _ (sub1 _ hm)), .inr (.inr rfl)⟩
  clear_value g3
  by_cases ht : has g3 "time" = true
  · rw [if_pos ht] at h
    cases h
    refine ⟨(p1.trans p2).trans p3, d3, ?_, ?_⟩
    · intro k hk
      simp only [List.mem_cons, List.not_mem_nil, or_false] at hk
      rcases hk with rfl | rfl | rfl | rfl
      · exact sub3 _ (sub2 _ m1)
      · exact sub3 _ m2
      · exact m3
      · exact (has_iff _ _).1 ht
    · intro x hx
      rcases mem3 x hx with hx | ⟨hk, hx⟩
      · exact .inl hx
      · exact .inr ⟨hk, by rcases hx with hx | hx | hx <;> simp [hx]⟩
  · rw [if_neg ht] at h
    have ht' : "time" ∉ g3.map (·.key) := fun hm => ht ((has_iff _ _).2 hm)
    cases htg : timeGuess none o.time with
    | error e => rw [htg] at h; cases h
    | ok t =>
      rw [htg] at h
      cases h
      refine ⟨((p1.trans p2).trans p3).trans (List.prefix_append _ _), ?_, ?_, ?_⟩
      · unfold IsDict
        rw [List.map_append, List.nodup_append]
        refine ⟨d3, by simp, ?_⟩
        intro a ha b hb
        simp only [List.map_cons, List.map_nil, List.mem_singleton] at hb
        subst hb
        exact fun hab => ht' (hab ▸ ha)
      · intro k hk
        simp only [List.mem_cons, List.not_mem_nil, or_false] at hk
        rw [List.map_append, List.mem_append]
        rcases hk with rfl | rfl | rfl | rfl
        · exact .inl (sub3 _ (sub2 _ m1))
        · exact .inl (sub3 _ m2)
        · exact .inl m3
        · exact .inr (by simp)
      · intro x hx
        rcases List.mem_append.1 hx with hx | hx
        · rcases mem3 x hx with hx | ⟨hk, hx⟩
          · exact .inl hx
          · exact .inr ⟨hk, by rcases hx with hx | hx | hx <;> simp [hx]⟩
        · simp only [List.mem_singleton] at hx
          subst hx
          refine .inr ⟨fun hm => ht' (sub3 _ (sub2 _ (sub1 _ hm))), .inr (.inr (.inr ⟨t, rfl, rfl⟩))⟩

/-- The default for altitude and Mach number: the fixed ends of the phase where there are any; all values lie within
the bounds if the ends do. -/
theorem endpoints_within {i f lo : Option ℚ} {up : ℚ} (hi : ∀ x ∈ i, (∀ l ∈ lo, l ≤ x) ∧ x ≤ up)
    (hf : ∀ x ∈ f, (∀ l ∈ lo, l ≤ x) ∧ x ≤ up) (hlo : ∀ l ∈ lo, l ≤ up) :
    (∀ x, some x ∈ endpoints i f lo → (∀ l ∈ lo, l ≤ x) ∧ x ≤ up) ∧
      (∀ x ∈ i, (endpoints i f lo)[0]? = some (some x)) ∧ (∀ x ∈ f, (endpoints i f lo)[1]? = some (some x)) ∧
      (endpoints i f lo).length = 2 := by
  refine ⟨?_, ?_, ?_, rfl⟩
  · intro x hx
    cases i <;> cases f <;> cases lo <;> simp_all [endpoints] <;> rcases hx with rfl | rfl <;> simp_all
  · intro x hx
    cases i <;> simp_all [endpoints]
  · intro x hx
    cases f <;> simp_all [endpoints]

example : endpoints (some 0) (some 35000) (some 0) = [some 0, some 35000] ∧
    endpoints none (some 35000) (some 1000) = [some 1000, some 35000] ∧
    endpoints (some 0) none none = [some 0, some 0] := by decide

/-- The default is a pair of numbers exactly if there is an initial value or a lower bound. -/
theorem endpoints_numbers_iff (i f lo : Option ℚ) :
    (∀ v ∈ endpoints i f lo, v ≠ none) ↔ (i ≠ none ∨ lo ≠ none) := by
  cases i <;> cases f <;> cases lo <;> simp [endpoints]

/-- With a free start and no lower bound (the default options) the guess is made of `None`. -/
theorem endpoints_none_violated : endpoints none none none = [none, none] := rfl

private theorem loop_append {f : Guess → Except Err (List Call)} :
    ∀ {a b : List Guess} {cs : List Call}, loop f (a ++ b) = .ok cs →
      ∃ c d, loop f a = .ok c ∧ loop f b = .ok d ∧ cs = c ++ d := by
  intro a
  induction a with
  | nil => intro b cs h; exact ⟨[], cs, rfl, h, rfl⟩
  | cons x a ih =>
    intro b cs h
    simp only [List.cons_append, loop] at h ⊢
    cases hx : f x with
    | error e => rw [hx] at h; cases h
    | ok c0 =>
      rw [hx] at h
      simp only at h
      cases hr : loop f (a ++ b) with
      | error e => rw [hr] at h; cases h
      | ok r =>
        rw [hr] at h
        cases h
        obtain ⟨c, d, hc, hd, he⟩ := ih hr
        refine ⟨c0 ++ c, d, by rw [hc], hd, by rw [he, List.append_assoc]⟩

private theorem loop_mem {f : Guess → Except Err (List Call)} :
    ∀ {a : List Guess} {cs : List Call}, loop f a = .ok cs → ∀ c ∈ cs, ∃ x ∈ a, ∃ ds, f x = .ok ds ∧ c ∈ ds := by
  intro a
  induction a with
  | nil => intro cs h c hc; simp only [loop, Except.ok.injEq] at h; subst h; cases hc
  | cons x a ih =>
    intro cs h c hc
    simp only [loop] at h
    cases hx : f x with
    | error e => rw [hx] at h; cases h
    | ok c0 =>
      rw [hx] at h
      simp only at h
      cases hr : loop f a with
      | error e => rw [hr] at h; cases h
      | ok r =>
        rw [hr] at h
        cases h
        rcases List.mem_append.1 hc with hc | hc
        · exact ⟨x, List.mem_cons_self .., c0, hx, hc⟩
        · obtain ⟨y, hy, ds, hd, hm⟩ := ih hr c hc
          exact ⟨y, List.mem_cons_of_mem _ hy, ds, hd, hm⟩

private theorem loop_ok_iff {f : Guess → Except Err (List Call)} (a : List Guess) :
    (∃ cs, loop f a = .ok cs) ↔ ∀ x ∈ a, ∃ ds, f x = .ok ds := by
  induction a with
  | nil => simp [loop]
  | cons x a ih =>
    simp only [loop, List.mem_cons, forall_eq_or_imp]
    rw [← ih]
    cases hx : f x with
    | error e => simp
    | ok c0 =>
      cases hr : loop f a with
      | error e => simp
      | ok r => simp

private theorem loop_last {f : Guess → Except Err (List Call)} {a : List Guess} {cs ds : List Call} {x : Guess}
    {d : Dest} {w : SV × String} (h : loop f a = .ok cs) (ha : IsDict a) (hx : x ∈ a) (hd : f x = .ok ds)
    (hw : lastVal ds d = some w)
    (hdisj : ∀ y ∈ a, y.key ≠ x.key → ∀ es, f y = .ok es → ∀ c ∈ es, c.dest ≠ d) : lastVal cs d = some w := by
  obtain ⟨l1, l2, rfl⟩ := List.append_of_mem hx
  obtain ⟨c1, c2, h1, h2, rfl⟩ := loop_append h
  simp only [loop, hd] at h2
  cases hr : loop f l2 with
  | error e => rw [hr] at h2; cases h2
  | ok r =>
    rw [hr] at h2
    cases h2
    have hnone : lastVal r d = none := by
      refine lastVal_none fun c hc => ?_
      obtain ⟨y, hy, es, he, hm⟩ := loop_mem hr c hc
      refine hdisj y (by simp [hy]) ?_ es he c hm
      intro hk
      unfold IsDict at ha
      rw [List.map_append, List.map_cons, List.nodup_append] at ha
      have := (List.nodup_cons.1 ha.2.1).1
      exact this (hk ▸ List.mem_map_of_mem hy)
    rw [lastVal_append, lastVal_append, hnone, hw]
    rfl

/-- The variable a plain key of an energy-state mission stands for. -/
def plainDest (pre : String) (o : EOpts) (k : String) : Option Dest :=
  if k = "mach" ∨ k = "altitude" ∨ (k = "throttle" ∧ o.throttleControl = true) then some (.phase ("controls:" ++ k))
  else if k = "mass" ∨ k = "distance" then some (.phase ("states:" ++ k))
  else if k = "tau_gear" ∨ k = "tau_flaps" then some (.prob (pre ++ k))
  else none

/-- Keys the configurator accepts with such a value. -/
def Accepted (o : EOpts) (x : Guess) : Prop :=
  (x.key = "time" ∧ ∃ a b r, x.val = .list (a :: b :: r)) ∨
  (x.key ∈ ["mach", "altitude", "mass", "distance", "tau_gear", "tau_flaps"]) ∨
  (x.key = "throttle" ∧ o.throttleControl = true) ∨
  (':' ∈ x.key.toList ∧ ∀ n, x.val ≠ .int n)

private theorem timeCalls_iff (g : Guess) : (∃ cs, timeCalls g = .ok cs) ↔ ∃ a b r, g.val = .list (a :: b :: r) := by
  unfold timeCalls
  cases hv : g.val with
  | flt q => simp [idx]
  | int n => simp [idx]
  | list l =>
    match l with
    | [] => simp [idx]
    | [a] => simp [idx]
    | a :: b :: r => simp [idx]

private theorem eControls_mem (o : EOpts) (k : String) :
    k ∈ eControls o ↔ k = "mach" ∨ k = "altitude" ∨ (k = "throttle" ∧ o.throttleControl = true) := by
  unfold eControls
  cases o.throttleControl <;> simp

private theorem applyE_ok_iff (pre : String) (o : EOpts) (x : Guess) :
    (∃ cs, applyE pre o x = .ok cs) ↔ Accepted o x := by
  unfold applyE Accepted
  by_cases h1 : x.key = "time"
  · rw [if_pos h1, timeCalls_iff]
    have hc : ':' ∉ ("time" : String).toList := by decide
    simp [h1, hc]
  · rw [if_neg h1]
    by_cases h2 : x.key ∈ eControls o
    · rw [if_pos h2]
      rw [eControls_mem] at h2
      simp only [Except.ok.injEq, exists_eq', true_iff]
      rcases h2 with h | h | h <;> simp [h]
    · rw [if_neg h2]
      rw [eControls_mem] at h2
      push Not at h2
      by_cases h3 : x.key ∈ eStates
      · rw [if_pos h3]
        simp only [eStates, List.mem_cons, List.not_mem_nil, or_false] at h3
        simp only [Except.ok.injEq, exists_eq', true_iff]
        rcases h3 with h | h <;> simp [h]
      · rw [if_neg h3]
        simp only [eStates, List.mem_cons, List.not_mem_nil, or_false] at h3
        push Not at h3
        by_cases h4 : x.key ∈ probKeys
        · rw [if_pos h4]
          simp only [probKeys, List.mem_cons, List.not_mem_nil, or_false] at h4
          simp only [Except.ok.injEq, exists_eq', true_iff]
          rcases h4 with h | h <;> simp [h]
        · rw [if_neg h4]
          simp only [probKeys, List.mem_cons, List.not_mem_nil, or_false] at h4
          push Not at h4
          have hthr : ¬ (x.key = "throttle" ∧ o.throttleControl = true) := fun hc => h2.2.2 hc.1 hc.2
          have hlist : x.key ∉ ["mach", "altitude", "mass", "distance", "tau_gear", "tau_flaps"] := by
            simp only [List.mem_cons, List.not_mem_nil, or_false]
            push Not
            exact ⟨h2.1, h2.2.1, h3.1, h3.2, h4.1, h4.2⟩
          by_cases h5 : ':' ∈ x.key.toList
          · rw [if_pos h5]
            have hp := processGuess_ok_iff x.val x.key
            cases hv : processGuess x.val x.key with
            | error e =>
              rw [hv] at hp
              simp only [reduceCtorEq, exists_false, false_iff] at hp
              simp [h1, hlist, hthr, h5, hp]
            | ok s =>
              rw [hv] at hp
              have hp' := hp.1 ⟨s, rfl⟩
              simp [h5, hp']
          · rw [if_neg h5]
            simp [h1, hlist, hthr, h5]

/-- The guesses are accepted exactly if each of them has a known name or names a variable of a subsystem, has a value
that can be used, and a time is given or can be derived from the options. -/
theorem energy_ok_iff (pre : String) (gross : ℚ) (o : EOpts) (g : List Guess) (hg : IsDict g) :
    (∃ cs, energyGuesses pre gross o g = .ok cs) ↔
      ((has g "time" = true ∨ ∃ t, timeGuess none o.time = .ok t) ∧ ∀ x ∈ g, Accepted o x) := by
  have hft : (∃ g', fillE gross o g = .ok g') ↔ (has g "time" = true ∨ ∃ t, timeGuess none o.time = .ok t) := by
    simp only [fillE]
    have hh : ∀ (l : List Guess) (d : Guess), d.key ≠ "time" → (has (addDefault l d) "time" = has l "time") := by
      intro l d hd
      unfold addDefault
      split_ifs
      · rfl
      · simp [has, hd]
    rw [hh _ _ (by simp), hh _ _ (by simp), hh _ _ (by simp)]
    by_cases ht : has g "time" = true
    · rw [if_pos ht]; simp [ht]
    · rw [if_neg ht]
      cases timeGuess none o.time with
      | error e => simp [ht]
      | ok t => simp
  rw [← hft]
  constructor
  · rintro ⟨cs, h⟩
    unfold energyGuesses at h
    cases hf : fillE gross o g with
    | error e => rw [hf] at h; cases h
    | ok g' =>
      rw [hf] at h
      refine ⟨⟨g', rfl⟩, fun x hx => ?_⟩
      have := (loop_ok_iff g').1 ⟨cs, h⟩ x ((fillE_spec hg hf).1.subset hx)
      exact (applyE_ok_iff pre o x).1 this
  · rintro ⟨⟨g', hf⟩, hacc⟩
    unfold energyGuesses
    rw [hf]
    simp only
    rw [loop_ok_iff]
    intro x hx
    rw [applyE_ok_iff]
    rcases (fillE_spec hg hf).2.2.2 x hx with hx | ⟨_, rfl | rfl | rfl | ⟨t, _, rfl⟩⟩
    · exact hacc x hx
    · exact .inr (.inl (by simp))
    · exact .inr (.inl (by simp))
    · exact .inr (.inl (by simp))
    · exact .inl ⟨rfl, t.1, t.2, [], rfl⟩

/-- No key names, with its prefix, one of the variables that have a plain key. -/
def NoClash (g : List Guess) : Prop :=
  ∀ x ∈ g, ∀ k ∈ ["mach", "altitude", "throttle", "mass", "distance"], x.key ≠ "controls:" ++ k ∧ x.key ≠ "states:" ++ k

private theorem applyE_dest {pre : String} {o : EOpts} {x : Guess} {cs : List Call} (h : applyE pre o x = .ok cs) :
    (x.key = "time" ∧ ∀ c ∈ cs, c.dest = .tInitial ∨ c.dest = .tDuration) ∨
    (x.key ∈ ["mach", "altitude", "throttle", "mass", "distance", "tau_gear", "tau_flaps"] ∧
      ∃ d, plainDest pre o x.key = some d ∧ cs = [⟨d, .raw x.val, x.units⟩]) ∨
    (plainDest pre o x.key = none ∧ x.key ≠ "time" ∧ ':' ∈ x.key.toList ∧
      ∃ v, processGuess x.val x.key = .ok v ∧ cs = [⟨.phase x.key, v, x.units⟩]) := by
  unfold applyE at h
  by_cases h1 : x.key = "time"
  · rw [if_pos h1] at h
    refine .inl ⟨h1, ?_⟩
    unfold timeCalls at h
    cases ha : idx x.val 0 with
    | error e => rw [ha] at h; cases h
    | ok a =>
      rw [ha] at h
      cases hb : idx x.val 1 with
      | error e => rw [hb] at h; cases h
      | ok b =>
        rw [hb] at h
        cases h
        simp
  · rw [if_neg h1] at h
    by_cases h2 : x.key ∈ eControls o
    · rw [if_pos h2] at h
      rw [eControls_mem] at h2
      cases h
      refine .inr (.inl ⟨by rcases h2 with h | h | h <;> simp [h], _, by rw [plainDest, if_pos h2], rfl⟩)
    · rw [if_neg h2] at h
      rw [eControls_mem] at h2
      by_cases h3 : x.key ∈ eStates
      · rw [if_pos h3] at h
        simp only [eStates, List.mem_cons, List.not_mem_nil, or_false] at h3
        cases h
        refine .inr (.inl ⟨by rcases h3 with h | h <;> simp [h], _, by rw [plainDest, if_neg h2, if_pos h3], rfl⟩)
      · rw [if_neg h3] at h
        simp only [eStates, List.mem_cons, List.not_mem_nil, or_false] at h3
        by_cases h4 : x.key ∈ probKeys
        · rw [if_pos h4] at h
          simp only [probKeys, List.mem_cons, List.not_mem_nil, or_false] at h4
          cases h
          refine .inr (.inl ⟨by rcases h4 with h | h <;> simp [h], _,
            by rw [plainDest, if_neg h2, if_neg h3, if_pos h4], rfl⟩)
        · rw [if_neg h4] at h
          simp only [probKeys, List.mem_cons, List.not_mem_nil, or_false] at h4
          by_cases h5 : ':' ∈ x.key.toList
          · rw [if_pos h5] at h
            cases hv : processGuess x.val x.key with
            | error e => rw [hv] at h; cases h
            | ok v =>
              rw [hv] at h
              cases h
              exact .inr (.inr ⟨by rw [plainDest, if_neg h2, if_neg h3, if_neg h4], h1, h5, v, rfl, rfl⟩)
          · rw [if_neg h5] at h; cases h

private theorem plainDest_inj {pre : String} {o : EOpts} {k k' : String} {d : Dest} (h : plainDest pre o k = some d)
    (h' : plainDest pre o k' = some d) : k = k' := by
  unfold plainDest at h h'
  split_ifs at h with a1 a2 a3 <;> split_ifs at h' with b1 b2 b3 <;>
    simp only [Option.some.injEq] at h h' <;> subst h <;> simp only [Dest.phase.injEq, Dest.prob.injEq, reduceCtorEq] at h'
  · simpa using h'.symm
  · rcases a1 with rfl | rfl | ⟨rfl, _⟩ <;> rcases b2 with rfl | rfl <;> exact absurd h' (by decide)
  · rcases b1 with rfl | rfl | ⟨rfl, _⟩ <;> rcases a2 with rfl | rfl <;> exact absurd h' (by decide)
  · simpa using h'.symm
  · simpa using h'.symm

private theorem plainDest_phase {pre : String} {o : EOpts} {k s : String} (h : plainDest pre o k = some (.phase s)) :
    k ∈ ["mach", "altitude", "throttle", "mass", "distance"] ∧ (s = "controls:" ++ k ∨ s = "states:" ++ k) := by
  unfold plainDest at h
  split_ifs at h with a1 a2 a3 <;> simp only [Option.some.injEq, Dest.phase.injEq, reduceCtorEq] at h
  · refine ⟨?_, .inl h.symm⟩
    rcases a1 with h | h | ⟨h, _⟩ <;> simp [h]
  · refine ⟨?_, .inr h.symm⟩
    rcases a2 with h | h <;> simp [h]

private theorem noClash_fill {gross : ℚ} {o : EOpts} {g g' : List Guess} (hg : IsDict g) (h : fillE gross o g = .ok g')
    (hc : NoClash g) : NoClash g' := by
  intro x hx k hk
  have key : ∀ n ∈ ["mass", "altitude", "mach", "time"], n ≠ "controls:" ++ k ∧ n ≠ "states:" ++ k := by
    intro n hn
    simp only [List.mem_cons, List.not_mem_nil, or_false] at hn hk
    rcases hn with rfl | rfl | rfl | rfl <;> rcases hk with rfl | rfl | rfl | rfl | rfl <;> decide
  rcases (fillE_spec hg h).2.2.2 x hx with hx | ⟨_, rfl | rfl | rfl | ⟨t, _, rfl⟩⟩
  · exact hc x hx k hk
  · exact key _ (by simp)
  · exact key _ (by simp)
  · exact key _ (by simp)
  · exact key _ (by simp)

private theorem dest_disjoint {pre : String} {o : EOpts} {g : List Guess} (hc : NoClash g) {x y : Guess} (hx : x ∈ g)
    (hy : y ∈ g) (hxy : y.key ≠ x.key) {cs es : List Call} (h : applyE pre o x = .ok cs) (he : applyE pre o y = .ok es) :
    ∀ c ∈ cs, ∀ e ∈ es, e.dest ≠ c.dest := by
  intro c hcc e hee hde
  rcases applyE_dest h with ⟨hk, ht⟩ | ⟨hk, d, hd, rfl⟩ | ⟨hn, hnt, hcol, v, hv, rfl⟩ <;>
    rcases applyE_dest he with ⟨hk', ht'⟩ | ⟨hk', d', hd', rfl⟩ | ⟨hn', hnt', hcol', v', hv', rfl⟩
  · exact hxy (hk'.trans hk.symm)
  · simp only [List.mem_singleton] at hee
    subst hee
    have hd'' : plainDest pre o y.key = some c.dest := by rw [hd', ← hde]
    unfold plainDest at hd''
    rcases ht c hcc with hq | hq <;> rw [hq] at hd'' <;> split_ifs at hd'' <;> simp at hd''
  · simp only [List.mem_singleton] at hee
    subst hee
    rcases ht c hcc with hq | hq <;> rw [hq] at hde <;> cases hde
  · simp only [List.mem_singleton] at hcc
    subst hcc
    simp only at hde
    have hd'' : plainDest pre o x.key = some e.dest := by rw [hd, hde]
    unfold plainDest at hd''
    rcases ht' e hee with hq | hq <;> rw [hq] at hd'' <;> split_ifs at hd'' <;> simp at hd''
  · simp only [List.mem_singleton] at hcc hee
    subst hcc; subst hee
    simp only at hde
    subst hde
    exact hxy (plainDest_inj hd' hd)
  · simp only [List.mem_singleton] at hcc hee
    subst hcc; subst hee
    simp only at hde
    subst hde
    obtain ⟨hm, hs⟩ := plainDest_phase hd
    have := hc y hy _ hm
    rcases hs with hs | hs
    · exact this.1 hs
    · exact this.2 hs
  · simp only [List.mem_singleton] at hcc
    subst hcc
    rcases ht' e hee with hq | hq <;> rw [hq] at hde <;> cases hde
  · simp only [List.mem_singleton] at hcc hee
    subst hcc; subst hee
    simp only at hde
    subst hde
    obtain ⟨hm, hs⟩ := plainDest_phase hd'
    have := hc x hx _ hm
    rcases hs with hs | hs
    · exact this.1 hs
    · exact this.2 hs
  · simp only [List.mem_singleton] at hcc hee
    subst hcc; subst hee
    simp only [Dest.phase.injEq] at hde
    exact hxy hde

private theorem energy_last {pre : String} {gross : ℚ} {o : EOpts} {g g' : List Guess} {cs : List Call} (hg : IsDict g)
    (hc : NoClash g) (hf : fillE gross o g = .ok g') (h : loop (applyE pre o) g' = .ok cs) {x : Guess} (hx : x ∈ g') :
    (∀ d, plainDest pre o x.key = some d → x.key ≠ "time" → lastVal cs d = some (.raw x.val, x.units)) ∧
    (plainDest pre o x.key = none → x.key ≠ "time" → ∃ v, processGuess x.val x.key = .ok v ∧
      lastVal cs (.phase x.key) = some (v, x.units)) ∧
    (x.key = "time" → ∃ a b r, x.val = .list (a :: b :: r) ∧ lastVal cs .tInitial = some (.num a, x.units) ∧
      lastVal cs .tDuration = some (.num b, x.units)) := by
  have hsp := fillE_spec hg hf
  have hcl := noClash_fill hg hf hc
  obtain ⟨ds, hd⟩ := (loop_ok_iff g').1 ⟨cs, h⟩ x hx
  have hlast : ∀ (d : Dest) (w : SV × String), lastVal ds d = some w → lastVal cs d = some w := by
    intro d w hw
    have hmem : ∃ c ∈ ds, c.dest = d := by
      by_contra hno
      push Not at hno
      rw [lastVal_none hno] at hw
      cases hw
    obtain ⟨c, hcd, rfl⟩ := hmem
    exact loop_last h hsp.2.1 hx hd hw fun y hy hyx es he e hee => dest_disjoint hcl hx hy hyx hd he c hcd e hee
  refine ⟨?_, ?_, ?_⟩
  · intro d hpd hnt
    rcases applyE_dest hd with ⟨hk, _⟩ | ⟨_, d', hd', rfl⟩ | ⟨hn, _⟩
    · exact absurd hk hnt
    · rw [hpd] at hd'
      cases hd'
      exact hlast _ _ (lastVal_single ⟨d, .raw x.val, x.units⟩)
    · rw [hpd] at hn; cases hn
  · intro hn hnt
    rcases applyE_dest hd with ⟨hk, _⟩ | ⟨_, d', hd', _⟩ | ⟨_, _, _, v, hv, rfl⟩
    · exact absurd hk hnt
    · rw [hn] at hd'; cases hd'
    · exact ⟨v, hv, hlast _ _ (lastVal_single ⟨.phase x.key, v, x.units⟩)⟩
  · intro hk
    unfold applyE at hd
    rw [if_pos hk] at hd
    obtain ⟨a, b, r, hv⟩ := (timeCalls_iff x).1 ⟨ds, hd⟩
    have hds : ds = [⟨.tInitial, .num a, x.units⟩, ⟨.tDuration, .num b, x.units⟩] := by
      unfold timeCalls at hd
      simp only [hv, idx, List.getElem?_cons_zero, List.getElem?_cons_succ, Except.ok.injEq] at hd
      exact hd.symm
    refine ⟨a, b, r, hv, hlast _ _ ?_, hlast _ _ ?_⟩ <;> subst hds <;> simp [lastVal]

/-- What the user gives is what the phase starts with, in the given units: plain keys reach their control, state or
problem variable unchanged, `time` sets start and duration, keys of subsystems get the interpolated values.  Only part of
the claim: no key may repeat, with prefix, a variable that has a plain key (see `energy_user_violated`). -/
theorem energy_user_partial {pre : String} {gross : ℚ} {o : EOpts} {g : List Guess} {cs : List Call} (hg : IsDict g)
    (hc : NoClash g) (h : energyGuesses pre gross o g = .ok cs) {x : Guess} (hx : x ∈ g) :
    (∀ d, plainDest pre o x.key = some d → lastVal cs d = some (.raw x.val, x.units)) ∧
    (plainDest pre o x.key = none → x.key ≠ "time" → ∃ v, processGuess x.val x.key = .ok v ∧
      lastVal cs (.phase x.key) = some (v, x.units)) ∧
    (x.key = "time" → ∃ a b r, x.val = .list (a :: b :: r) ∧ lastVal cs .tInitial = some (.num a, x.units) ∧
      lastVal cs .tDuration = some (.num b, x.units)) := by
  unfold energyGuesses at h
  cases hf : fillE gross o g with
  | error e => rw [hf] at h; cases h
  | ok g' =>
    rw [hf] at h
    obtain ⟨h1, h2, h3⟩ := energy_last hg hc hf h ((fillE_spec hg hf).1.subset hx)
    refine ⟨fun d hd => h1 d hd ?_, h2, h3⟩
    intro ht
    rw [ht] at hd
    unfold plainDest at hd
    simp at hd

/-- Values for time, mass, altitude and Mach number are always set; without a guess of the user the mass is the gross
mass and altitude and Mach number run between the fixed ends. -/
theorem energy_complete {pre : String} {gross : ℚ} {o : EOpts} {g : List Guess} {cs : List Call} (hg : IsDict g)
    (hc : NoClash g) (h : energyGuesses pre gross o g = .ok cs) :
    (∀ d ∈ [Dest.tInitial, .tDuration, .phase "states:mass", .phase "controls:altitude", .phase "controls:mach"],
      lastVal cs d ≠ none) ∧
    (has g "mass" = false → lastVal cs (.phase "states:mass") = some (.raw (.flt gross), "lbm")) ∧
    (has g "altitude" = false → lastVal cs (.phase "controls:altitude") =
      some (.raw (.list (endpoints o.altitudeInitial o.altitudeFinal o.altitudeLower)), "ft")) ∧
    (has g "mach" = false → lastVal cs (.phase "controls:mach") =
      some (.raw (.list (endpoints o.machInitial o.machFinal o.machLower)), "unitless")) ∧
    (has g "time" = false → ∃ t, timeGuess none o.time = .ok t ∧ lastVal cs .tInitial = some (.num t.1, "s") ∧
      lastVal cs .tDuration = some (.num t.2, "s")) := by
  unfold energyGuesses at h
  cases hf : fillE gross o g with
  | error e => rw [hf] at h; cases h
  | ok g' =>
    rw [hf] at h
    obtain ⟨_, _, hall, hmem⟩ := fillE_spec hg hf
    have get : ∀ k ∈ ["mass", "altitude", "mach", "time"], ∃ x ∈ g', x.key = k := by
      intro k hk
      obtain ⟨x, hx, hxk⟩ := List.mem_map.1 (hall k hk)
      exact ⟨x, hx, hxk⟩
    obtain ⟨xm, hxm, km⟩ := get "mass" (by simp)
    obtain ⟨xa, hxa, ka⟩ := get "altitude" (by simp)
    obtain ⟨xc, hxc, kc⟩ := get "mach" (by simp)
    obtain ⟨xt, hxt, kt⟩ := get "time" (by simp)
    have lm := (energy_last hg hc hf h hxm).1 (.phase "states:mass") (by rw [km]; simp [plainDest]) (by rw [km]; decide)
    have la := (energy_last hg hc hf h hxa).1 (.phase "controls:altitude") (by rw [ka]; simp [plainDest])
      (by rw [ka]; decide)
    have lc := (energy_last hg hc hf h hxc).1 (.phase "controls:mach") (by rw [kc]; simp [plainDest]) (by rw [kc]; decide)
    obtain ⟨a, b, r, hv, l0, l1⟩ := (energy_last hg hc hf h hxt).2.2 kt
    have out : ∀ {x : Guess} {k : String}, x ∈ g → x.key = k → has g k = false → False := by
      intro x k hx hk hno
      have : has g k = true := (has_iff g k).2 (hk ▸ List.mem_map_of_mem hx)
      rw [this] at hno; cases hno
    refine ⟨?_, ?_, ?_, ?_, ?_⟩
    · intro d hd
      simp only [List.mem_cons, List.not_mem_nil, or_false] at hd
      rcases hd with rfl | rfl | rfl | rfl | rfl
      · rw [l0]; simp
      · rw [l1]; simp
      · rw [lm]; simp
      · rw [la]; simp
      · rw [lc]; simp
    · intro hno
      rcases hmem xm hxm with hx | ⟨_, rfl | rfl | rfl | ⟨t, _, rfl⟩⟩
      · exact (out hx km hno).elim
      · exact lm
      all_goals exact absurd km (by simp)
    · intro hno
      rcases hmem xa hxa with hx | ⟨_, rfl | rfl | rfl | ⟨t, _, rfl⟩⟩
      · exact (out hx ka hno).elim
      · exact absurd ka (by simp)
      · exact la
      all_goals exact absurd ka (by simp)
    · intro hno
      rcases hmem xc hxc with hx | ⟨_, rfl | rfl | rfl | ⟨t, _, rfl⟩⟩
      · exact (out hx kc hno).elim
      · exact absurd kc (by simp)
      · exact absurd kc (by simp)
      · exact lc
      · exact absurd kc (by simp)
    · intro hno
      rcases hmem xt hxt with hx | ⟨_, rfl | rfl | rfl | ⟨t, ht, rfl⟩⟩
      · exact (out hx kt hno).elim
      · exact absurd kt (by simp)
      · exact absurd kt (by simp)
      · exact absurd kt (by simp)
      · simp only [GV.list.injEq, List.cons.injEq] at hv
        obtain ⟨rfl, rfl, _⟩ := hv
        exact ⟨t, ht, l0, l1⟩

/-- Options of a climb with fixed ends. -/
def climbOpts : EOpts where
  throttleControl := false
  altitudeInitial := some 0
  altitudeFinal := some 35000
  machLower := some (2 / 10)
  time := ⟨some 0, some 1800, (none, none), (none, none), none, none⟩

/-- A guess of the user for Mach number and distance, and a state of a battery. -/
def climbGuesses : List Guess := [⟨"mach", .list [some (3 / 10), some (7 / 10)], "unitless"⟩,
  ⟨"distance", .list [some 0, some 120], "nmi"⟩, ⟨"states:battery", .list [some 1, some (9 / 10), some (8 / 10)], "unitless"⟩]

example : IsDict climbGuesses ∧ NoClash climbGuesses := by
  unfold IsDict NoClash
  decide

example : energyGuesses "" 150000 climbOpts climbGuesses = .ok [
    ⟨.phase "controls:mach", .raw (.list [some (3 / 10), some (7 / 10)]), "unitless"⟩,
    ⟨.phase "states:distance", .raw (.list [some 0, some 120]), "nmi"⟩,
    ⟨.phase "states:battery", .interp "battery" [-1, 0, 1] [some 1, some (9 / 10), some (8 / 10)], "unitless"⟩,
    ⟨.phase "states:mass", .raw (.flt 150000), "lbm"⟩,
    ⟨.phase "controls:altitude", .raw (.list [some 0, some 35000]), "ft"⟩,
    ⟨.tInitial, .num (some 0), "s"⟩, ⟨.tDuration, .num (some 1800), "s"⟩] := by decide +kernel

/-- "Let's preserve the original user-specified initial conditions": the user's `states:mass` is replaced by the
default. -/
theorem energy_user_violated (q gross : ℚ) :
    ∃ cs, energyGuesses "" gross climbOpts [⟨"states:mass", .flt q, "lbm"⟩] = .ok cs ∧
      lastVal cs (.phase "states:mass") = some (.raw (.flt gross), "lbm") := by
  refine ⟨[⟨.phase "states:mass", .raw (.flt q), "lbm"⟩, ⟨.phase "states:mass", .raw (.flt gross), "lbm"⟩,
    ⟨.phase "controls:altitude", .raw (.list [some 0, some 35000]), "ft"⟩,
    ⟨.phase "controls:mach", .raw (.list [some (2 / 10), some (2 / 10)]), "unitless"⟩,
    ⟨.tInitial, .num (some 0), "s"⟩, ⟨.tDuration, .num (some 1800), "s"⟩], ?_, ?_⟩
  · simp [energyGuesses, fillE, addDefault, has, climbOpts, endpoints, timeGuess, loop, applyE, timeCalls, idx, eControls,
      eStates, probKeys, processGuess]
  · simp [lastVal]

/-- `mass_initial` only says that the initial mass is fixed; the value it is fixed at is the guess, which is the gross
mass unless a guess is given as well. -/
theorem initialMass_violated (m gross : ℚ) (hm : m ≠ gross) {pre : String} {o : EOpts} {g : List Guess} {cs : List Call}
    (hg : IsDict g) (hc : NoClash g) (h : energyGuesses pre gross o g = .ok cs) (hno : has g "mass" = false)
    (rate : String) :
    (((FlightPhase.addState {} { initial := some m, units := "lbm" } "mass" rate).states.map
        fun s => (s.name, s.fixInitial)) = [("mass", true)]) ∧
      lastVal cs (.phase "states:mass") = some (.raw (.flt gross), "lbm") ∧
      lastVal cs (.phase "states:mass") ≠ some (.raw (.flt m), "lbm") := by
  have hl := (energy_complete hg hc h).2.1 hno
  refine ⟨rfl, hl, ?_⟩
  rw [hl]
  simp only [ne_eq, Option.some.injEq, Prod.mk.injEq, SV.raw.injEq, GV.flt.injEq, and_true]
  exact fun he => hm he.symm

/-! ### Two-degree-of-freedom missions -/

/-- In a Breguet cruise the mass is the independent variable: its guess sets start and length; a guess for the time has
no effect; all others go to parameters of the phase and none is refused. -/
theorem breguet_spec {g : List Guess} {cs : List Call} {pre : String} {asc : Bool} {rot : ℚ} (hg : IsDict g)
    (h : twoDofGuesses pre true asc rot g = .ok cs) {x : Guess} (hx : x ∈ g) :
    (x.key = "mass" → ∃ a b r, x.val = .list (a :: b :: r) ∧ lastVal cs .tInitial = some (.num a, x.units) ∧
      lastVal cs .tDuration = some (.num b, x.units)) ∧
    (x.key ≠ "mass" → x.key ≠ "time" → lastVal cs (.phase ("parameters:" ++ x.key)) = some (.raw x.val, x.units)) ∧
    (∀ s, lastVal cs (.phase s) ≠ none → ∃ y ∈ g, y.key ≠ "mass" ∧ y.key ≠ "time" ∧ s = "parameters:" ++ y.key) := by
  simp only [twoDofGuesses, if_true] at h
  have hdest : ∀ (y : Guess) (es : List Call), applyB y = .ok es →
      (y.key = "mass" ∧ ∃ a b r, y.val = .list (a :: b :: r) ∧
        es = [⟨.tInitial, .num a, y.units⟩, ⟨.tDuration, .num b, y.units⟩]) ∨ (y.key = "time" ∧ es = []) ∨
      (y.key ≠ "mass" ∧ y.key ≠ "time" ∧ es = [⟨.phase ("parameters:" ++ y.key), .raw y.val, y.units⟩]) := by
    intro y es he
    unfold applyB at he
    by_cases h1 : y.key = "mass"
    · rw [if_pos h1] at he
      obtain ⟨a, b, r, hv⟩ := (timeCalls_iff y).1 ⟨es, he⟩
      unfold timeCalls at he
      simp only [hv, idx, List.getElem?_cons_zero, List.getElem?_cons_succ, Except.ok.injEq] at he
      exact .inl ⟨h1, a, b, r, hv, he.symm⟩
    · rw [if_neg h1] at he
      by_cases h2 : y.key = "time"
      · rw [if_pos h2] at he
        cases he
        exact .inr (.inl ⟨h2, rfl⟩)
      · rw [if_neg h2] at he
        cases he
        exact .inr (.inr ⟨h1, h2, rfl⟩)
  obtain ⟨ds, hd⟩ := (loop_ok_iff g).1 ⟨cs, h⟩ x hx
  refine ⟨?_, ?_, ?_⟩
  · intro hk
    rcases hdest x ds hd with ⟨_, a, b, r, hv, rfl⟩ | ⟨hk', _⟩ | ⟨hk', _⟩
    · refine ⟨a, b, r, hv, ?_, ?_⟩
      · refine loop_last h hg hx hd (by simp [lastVal]) fun y hy hyx es he c hc => ?_
        rcases hdest y es he with ⟨hy1, _⟩ | ⟨_, rfl⟩ | ⟨_, _, rfl⟩
        · exact absurd (hy1.trans hk.symm) hyx
        · cases hc
        · simp only [List.mem_singleton] at hc; subst hc; simp
      · refine loop_last h hg hx hd (by simp [lastVal]) fun y hy hyx es he c hc => ?_
        rcases hdest y es he with ⟨hy1, _⟩ | ⟨_, rfl⟩ | ⟨_, _, rfl⟩
        · exact absurd (hy1.trans hk.symm) hyx
        · cases hc
        · simp only [List.mem_singleton] at hc; subst hc; simp
    · rw [hk] at hk'; exact absurd hk' (by decide)
    · exact absurd hk hk'
  · intro h1 h2
    rcases hdest x ds hd with ⟨hk, _⟩ | ⟨hk, _⟩ | ⟨_, _, rfl⟩
    · exact absurd hk h1
    · exact absurd hk h2
    · refine loop_last h hg hx hd (lastVal_single _) fun y hy hyx es he c hc => ?_
      rcases hdest y es he with ⟨_, a, b, r, _, rfl⟩ | ⟨_, rfl⟩ | ⟨_, _, rfl⟩
      · simp only [List.mem_cons, List.not_mem_nil, or_false] at hc
        rcases hc with rfl | rfl <;> simp
      · cases hc
      · simp only [List.mem_singleton] at hc
        subst hc
        simp only [ne_eq, Dest.phase.injEq]
        intro hq
        exact hyx (by simpa using hq)
  · intro s hs
    have : ∃ c ∈ cs, c.dest = .phase s := by
      by_contra hno
      push Not at hno
      exact hs (lastVal_none hno)
    obtain ⟨c, hc, hcs⟩ := this
    obtain ⟨y, hy, es, he, hm⟩ := loop_mem h c hc
    refine ⟨y, hy, ?_⟩
    rcases hdest y es he with ⟨_, a, b, r, _, rfl⟩ | ⟨_, rfl⟩ | ⟨h1, h2, rfl⟩
    · simp only [List.mem_cons, List.not_mem_nil, or_false] at hm
      rcases hm with rfl | rfl <;> cases hcs
    · cases hm
    · simp only [List.mem_singleton] at hm
      subst hm
      simp only [Dest.phase.injEq] at hcs
      exact ⟨h1, h2, hcs.symm⟩

example : twoDofGuesses "" true false 170000 [⟨"mass", .list [some 171000, some (-36000)], "lbm"⟩,
    ⟨"time", .list [some 1516, some 26500], "s"⟩, ⟨"mach", .flt (8 / 10), "unitless"⟩] =
    .ok [⟨.tInitial, .num (some 171000), "lbm"⟩, ⟨.tDuration, .num (some (-36000)), "lbm"⟩,
      ⟨.phase "parameters:mach", .raw (.flt (8 / 10)), "unitless"⟩] := by decide +kernel

/-- Keys the two-degree-of-freedom configurator accepts with such a value. -/
def AcceptedT (x : Guess) : Prop :=
  (x.key = "time" ∧ ∃ a b r, x.val = .list (a :: b :: r)) ∨
  (x.key ∈ ["velocity_rate", "throttle", "altitude", "mass", "distance", "velocity", "flight_path_angle",
    "angle_of_attack"] ∧ ∀ n, x.val ≠ .int n) ∨
  (x.key ∈ ["tau_gear", "tau_flaps"]) ∨
  (':' ∈ x.key.toList ∧ ∀ n, x.val ≠ .int n)

private theorem processed_iff (d : Dest) (x : Guess) : (∃ cs, processed d x = .ok cs) ↔ ∀ n, x.val ≠ .int n := by
  rw [← processGuess_ok_iff x.val x.key]
  unfold processed
  cases processGuess x.val x.key <;> simp

private theorem tControls_mem (asc : Bool) (k : String) :
    k ∈ tControls asc ↔ k = "velocity_rate" ∨ k = "throttle" ∨ (k = "angle_of_attack" ∧ asc = true) := by
  unfold tControls
  cases asc <;> simp

private theorem applyT_ok_iff (pre : String) (asc : Bool) (x : Guess) :
    (∃ cs, applyT pre asc x = .ok cs) ↔ AcceptedT x := by
  unfold applyT AcceptedT
  by_cases h1 : x.key = "time"
  · rw [if_pos h1]
    have hc : ':' ∉ ("time" : String).toList := by decide
    have ht := timeCalls_iff x
    cases htc : timeCalls x with
    | error e =>
      rw [htc] at ht
      simp only [reduceCtorEq, exists_false, false_iff] at ht
      simp only [reduceCtorEq, exists_false, false_iff]
      rintro (⟨_, h⟩ | ⟨h, _⟩ | h | ⟨h, _⟩)
      · exact ht h
      · rw [h1] at h; exact absurd h (by decide)
      · rw [h1] at h; exact absurd h (by decide)
      · rw [h1] at h; exact hc h
    | ok cs =>
      rw [htc] at ht
      have h2 := ht.1 ⟨cs, rfl⟩
      simp only [h1, true_and]
      constructor
      · intro _; exact .inl h2
      · intro _; cases asc <;> simp
  · rw [if_neg h1]
    by_cases h2 : x.key ∈ tControls asc
    · rw [if_pos h2, processed_iff]
      rw [tControls_mem] at h2
      have hm : x.key ∈ ["velocity_rate", "throttle", "altitude", "mass", "distance", "velocity", "flight_path_angle",
          "angle_of_attack"] := by rcases h2 with h | h | ⟨h, _⟩ <;> simp [h]
      have hp : x.key ∉ ["tau_gear", "tau_flaps"] := by rcases h2 with h | h | ⟨h, _⟩ <;> rw [h] <;> decide
      have hc : ':' ∉ x.key.toList := by rcases h2 with h | h | ⟨h, _⟩ <;> rw [h] <;> decide
      simp [h1, hm, hp, hc]
    · rw [if_neg h2]
      rw [tControls_mem] at h2
      push Not at h2
      by_cases h3 : x.key ∈ tStates
      · rw [if_pos h3, processed_iff]
        have hm : x.key ∈ ["velocity_rate", "throttle", "altitude", "mass", "distance", "velocity", "flight_path_angle",
            "angle_of_attack"] := by
          simp only [tStates, List.mem_cons, List.not_mem_nil, or_false] at h3
          rcases h3 with h | h | h | h | h | h <;> simp [h]
        have hp : x.key ∉ ["tau_gear", "tau_flaps"] := by
          simp only [tStates, List.mem_cons, List.not_mem_nil, or_false] at h3
          rcases h3 with h | h | h | h | h | h <;> rw [h] <;> decide
        have hc : ':' ∉ x.key.toList := by
          simp only [tStates, List.mem_cons, List.not_mem_nil, or_false] at h3
          rcases h3 with h | h | h | h | h | h <;> rw [h] <;> decide
        simp [h1, hm, hp, hc]
      · rw [if_neg h3]
        have hm : x.key ∉ ["velocity_rate", "throttle", "altitude", "mass", "distance", "velocity", "flight_path_angle",
            "angle_of_attack"] := by
          simp only [tStates, List.mem_cons, List.not_mem_nil, or_false] at h3
          push Not at h3
          simp only [List.mem_cons, List.not_mem_nil, or_false]
          push Not
          exact ⟨h2.1, h2.2.1, h3⟩
        by_cases h4 : x.key ∈ probKeys
        · rw [if_pos h4]
          have : x.key ∈ ["tau_gear", "tau_flaps"] := h4
          simp [this]
        · rw [if_neg h4]
          have h4' : x.key ∉ ["tau_gear", "tau_flaps"] := h4
          by_cases h5 : ':' ∈ x.key.toList
          · rw [if_pos h5, processed_iff]
            simp [h1, hm, h4', h5]
          · rw [if_neg h5]
            simp [h1, hm, h4', h5]

/-- Outside of the Breguet cruise the guesses are accepted exactly if each has a known name, or names a variable of a
subsystem, and its value can be used. -/
theorem twoDof_ok_iff (pre : String) (asc : Bool) (rot : ℚ) (g : List Guess) :
    (∃ cs, twoDofGuesses pre false asc rot g = .ok cs) ↔ ∀ x ∈ g, AcceptedT x := by
  have : (∃ cs, twoDofGuesses pre false asc rot g = .ok cs) ↔ ∃ cs, loop (applyT pre asc) g = .ok cs := by
    simp only [twoDofGuesses, Bool.false_eq_true, if_false]
    cases loop (applyT pre asc) g with
    | error e => simp
    | ok cs => cases has g "mass" <;> simp
  rw [this, loop_ok_iff]
  exact forall₂_congr fun x _ => applyT_ok_iff pre asc x

/-- A whole number, fine for the energy-state missions, is refused here. -/
theorem twoDof_int_violated (n : ℤ) (gross : ℚ) :
    (∃ cs, energyGuesses "" gross climbOpts [⟨"mass", .int n, "lbm"⟩] = .ok cs) ∧
      twoDofGuesses "" false false gross [⟨"mass", .int n, "lbm"⟩] = .error .typeError :=
  ⟨⟨_, rfl⟩, rfl⟩

/-- The angle of attack is a control in the ascent and a state in all other phases. -/
theorem angleOfAttack_dest (pre : String) (asc : Bool) (q : ℚ) (u : String) :
    applyT pre asc ⟨"angle_of_attack", .flt q, u⟩ =
      .ok [⟨.phase (if asc then "controls:angle_of_attack" else "states:angle_of_attack"), .raw (.flt q), u⟩] := by
  cases asc <;> rfl

/-- Without a guess for the mass the rotation mass is used. -/
theorem twoDof_mass {pre : String} {asc : Bool} {rot : ℚ} {g : List Guess} {cs : List Call}
    (h : twoDofGuesses pre false asc rot g = .ok cs) (hno : has g "mass" = false) :
    lastVal cs (.phase "states:mass") = some (.raw (.flt rot), "lbm") := by
  simp only [twoDofGuesses, Bool.false_eq_true, if_false, hno] at h
  cases hl : loop (applyT pre asc) g with
  | error e => rw [hl] at h; cases h
  | ok ds =>
    rw [hl] at h
    cases h
    rw [lastVal_append]
    simp [lastVal]

/-- Again a guess `states:mass` of the user is lost. -/
theorem twoDof_user_violated (q rot : ℚ) :
    ∃ cs, twoDofGuesses "" false false rot [⟨"states:mass", .flt q, "lbm"⟩] = .ok cs ∧
      lastVal cs (.phase "states:mass") = some (.raw (.flt rot), "lbm") := by
  refine ⟨[⟨.phase "states:mass", .raw (.flt q), "lbm"⟩, ⟨.phase "states:mass", .raw (.flt rot), "lbm"⟩], ?_, ?_⟩
  · simp [twoDofGuesses, has, loop, applyT, tControls, tStates, probKeys, processed, processGuess]
  · simp [lastVal]

/-- The time of the ascent is set without the prefix of the trajectory, the gear and flap times with it: in a
problem with several missions all of them set the same variable. -/
theorem ascentPrefix_violated (pre : String) (rot a b : ℚ) :
    ∃ cs, twoDofGuesses pre false true rot [⟨"time", .list [some a, some b], "s"⟩, ⟨"tau_gear", .flt 0, "unitless"⟩] =
        .ok cs ∧
      lastVal cs (.prob "mission:takeoff:ascent_t_initial") = some (.num (some a), "s") ∧
      lastVal cs (.prob "mission:takeoff:ascent_duration") = some (.num (some b), "s") ∧
      (⟨.prob (pre ++ "tau_gear"), .raw (.flt 0), "unitless"⟩ : Call) ∈ cs := by
  refine ⟨[⟨.prob "mission:takeoff:ascent_t_initial", .num (some a), "s"⟩,
    ⟨.prob "mission:takeoff:ascent_duration", .num (some b), "s"⟩,
    ⟨.prob (pre ++ "tau_gear"), .raw (.flt 0), "unitless"⟩, ⟨.phase "states:mass", .raw (.flt rot), "lbm"⟩], rfl, ?_, ?_,
    by simp⟩
  · have hne : pre ++ "tau_gear" ≠ "mission:takeoff:ascent_t_initial" := by
      intro he
      have := congrArg (fun s : String => s.toList.getLast?) he
      simp at this
    simp [lastVal, hne]
  · have hne : pre ++ "tau_gear" ≠ "mission:takeoff:ascent_duration" := by
      intro he
      have := congrArg (fun s : String => s.toList.getLast?) he
      simp at this
    simp [lastVal, hne]

/-! ### Solved two-degree-of-freedom missions -/

private theorem applyS_calls {x : Guess} {cs : List Call} (h : applyS x = .ok cs) : ∀ c ∈ cs,
    (x.key = "mach" ∨ x.key = "altitude") ∧ c.dest = .phase ("controls:" ++ x.key) ∧ c.units = x.units ∧
      processGuess x.val x.key = .ok c.val := by
  intro c hc
  unfold applyS at h
  cases h0 : idx x.val 0 with
  | error e => rw [h0] at h; cases h
  | ok a =>
    rw [h0] at h
    cases a with
    | none => cases h; cases hc
    | some a =>
      simp only at h
      cases h1 : idx x.val 1 with
      | error e => rw [h1] at h; cases h
      | ok b =>
        rw [h1] at h
        cases b with
        | none => cases h; cases hc
        | some b =>
          simp only at h
          by_cases hk : x.key ∈ ["mach", "altitude"]
          · rw [if_pos hk] at h
            unfold processed at h
            cases hp : processGuess x.val x.key with
            | error e => rw [hp] at h; cases h
            | ok v =>
              rw [hp] at h
              cases h
              simp only [List.mem_singleton] at hc
              subst hc
              exact ⟨by simpa using hk, rfl, rfl, rfl⟩
          · rw [if_neg hk] at h; cases h; cases hc

/-- Only Mach number and altitude are set, and their values are the fixed ends of the phase. -/
theorem solved_only_ends {o : SOpts} {g : List Guess} {cs : List Call} (hg : IsDict g)
    (h : solvedGuesses o g = .ok cs) : ∀ c ∈ cs,
    (c.dest = .phase "controls:mach" ∧ c.units = "unitless" ∧ ∃ a b, o.machInitial = some a ∧ o.machFinal = some b ∧
      c.val = .interp "mach" [-1, 1] [some a, some b]) ∨
    (c.dest = .phase "controls:altitude" ∧ c.units = "ft" ∧ ∃ a b, o.altitudeInitial = some a ∧
      o.altitudeFinal = some b ∧ c.val = .interp "altitude" [-1, 1] [some a, some b]) := by
  intro c hc
  have hset : ∀ (l : List Guess) (d x : Guess), x ∈ setGuess l d → x.key = d.key → x = d := by
    intro l d x hx hk
    unfold setGuess at hx
    by_cases hh : has l d.key = true
    · rw [if_pos hh] at hx
      obtain ⟨y, hy, rfl⟩ := List.mem_map.1 hx
      by_cases hyk : y.key = d.key
      · rw [if_pos hyk]
      · rw [if_neg hyk] at hk; exact absurd hk hyk
    · rw [if_neg hh] at hx
      rcases List.mem_append.1 hx with hx | hx
      · exact absurd ((has_iff l d.key).2 (hk ▸ List.mem_map_of_mem hx)) hh
      · simpa using hx
  have hother : ∀ (l : List Guess) (d x : Guess), x ∈ setGuess l d → x.key ≠ d.key → x ∈ l := by
    intro l d x hx hk
    unfold setGuess at hx
    by_cases hh : has l d.key = true
    · rw [if_pos hh] at hx
      obtain ⟨y, hy, rfl⟩ := List.mem_map.1 hx
      by_cases hyk : y.key = d.key
      · rw [if_pos hyk] at hk; exact absurd rfl hk
      · rw [if_neg hyk]; exact hy
    · rw [if_neg hh] at hx
      rcases List.mem_append.1 hx with hx | hx
      · exact hx
      · simp only [List.mem_singleton] at hx; subst hx; exact absurd rfl hk
  simp only [solvedGuesses] at h
  obtain ⟨x, hx, ds, hd, hm⟩ := loop_mem h c hc
  obtain ⟨hk, hdest, hu, hv⟩ := applyS_calls hd c hm
  have lin2 : linspace 2 = [-1, 1] := by decide +kernel
  rcases hk with hk | hk
  · left
    have hx1 := hother _ _ x hx (by rw [hk]; simp)
    have hx2 := hset _ _ x hx1 hk
    subst hx2
    refine ⟨hdest, hu, ?_⟩
    unfold applyS at hd
    simp only [idx, List.getElem?_cons_zero, List.getElem?_cons_succ] at hd
    cases ha : o.machInitial with
    | none => rw [ha] at hd; cases hd; cases hm
    | some a =>
      cases hb : o.machFinal with
      | none => rw [ha, hb] at hd; cases hd; cases hm
      | some b =>
        refine ⟨a, b, rfl, rfl, ?_⟩
        simp only [ha, hb, processGuess, List.length_cons, List.length_nil] at hv
        rw [if_pos (by decide), if_neg (by decide)] at hv
        simp only [Except.ok.injEq] at hv
        rw [← hv, lin2]
  · right
    have hx2 := hset _ _ x hx hk
    subst hx2
    refine ⟨hdest, hu, ?_⟩
    unfold applyS at hd
    simp only [idx, List.getElem?_cons_zero, List.getElem?_cons_succ] at hd
    cases ha : o.altitudeInitial with
    | none => rw [ha] at hd; cases hd; cases hm
    | some a =>
      cases hb : o.altitudeFinal with
      | none => rw [ha, hb] at hd; cases hd; cases hm
      | some b =>
        refine ⟨a, b, rfl, rfl, ?_⟩
        simp only [ha, hb, processGuess, List.length_cons, List.length_nil] at hv
        rw [if_pos (by decide), if_neg (by decide)] at hv
        simp only [Except.ok.injEq] at hv
        rw [← hv, lin2]

/-- A guess of the user for the Mach number has no effect: with fixed ends it is replaced, without them it is
dropped. -/
theorem solved_user_violated (a b c d : ℚ) :
    solvedGuesses ⟨none, none, some a, some b⟩ [⟨"mach", .list [some c, some d], "unitless"⟩] =
        .ok [⟨.phase "controls:mach", .interp "mach" (linspace 2) [some a, some b], "unitless"⟩] ∧
      solvedGuesses {} [⟨"mach", .list [some c, some d], "unitless"⟩] = .ok [] := by
  have h1 : contains "controls:" "mach" = false := by decide
  have h2 : contains "states:" "mach" = false := by decide
  constructor
  · simp [solvedGuesses, setGuess, has, loop, applyS, idx, processed, processGuess, h1, h2]
  · simp [solvedGuesses, setGuess, has, loop, applyS, idx]

/-- A single number as guess for any variable raises, although such a guess is accepted by the builder. -/
theorem solved_scalar_violated (q : ℚ) : solvedGuesses {} [⟨"mass", .flt q, "lbm"⟩] = .error .typeError := rfl

/-! ### Builders -/

private theorem meta_any (m : Meta) (n : String) : (m.any (fun e => e.1 == n) = true) ↔ n ∈ m.map Prod.fst := by
  simp

/-- Registration: the new name has the new kind, others keep theirs, no name appears twice. -/
theorem addMeta_spec (m : Meta) (hm : (m.map Prod.fst).Nodup) (name : String) (k : Kind) :
    ((addMeta m name k).map Prod.fst).Nodup ∧ (name, k) ∈ addMeta m name k ∧
      ∀ n k', n ≠ name → ((n, k') ∈ addMeta m name k ↔ (n, k') ∈ m) := by
  unfold addMeta
  by_cases h : m.any (fun e => e.1 == name) = true
  · rw [if_pos h]
    have hmap : (m.map (fun e => if e.1 = name then (name, k) else e)).map Prod.fst = m.map Prod.fst := by
      rw [List.map_map]
      refine List.map_congr_left fun e _ => ?_
      by_cases he : e.1 = name <;> simp [he]
    refine ⟨by rw [hmap]; exact hm, ?_, ?_⟩
    · obtain ⟨e, he, hen⟩ := List.mem_map.1 ((meta_any m name).1 h)
      exact List.mem_map.2 ⟨e, he, by rw [if_pos hen]⟩
    · intro n k' hn
      constructor
      · intro hx
        obtain ⟨e, he, heq⟩ := List.mem_map.1 hx
        by_cases hen : e.1 = name
        · rw [if_pos hen] at heq
          exact absurd (congrArg Prod.fst heq).symm hn
        · rw [if_neg hen] at heq
          exact heq ▸ he
      · intro hx
        exact List.mem_map.2 ⟨(n, k'), hx, by rw [if_neg hn]⟩
  · rw [if_neg h]
    have h' : name ∉ m.map Prod.fst := fun hc => h ((meta_any m name).2 hc)
    refine ⟨?_, by simp, ?_⟩
    · rw [List.map_append, List.nodup_append]
      refine ⟨hm, by simp, ?_⟩
      intro a ha b hb
      simp only [List.map_cons, List.map_nil, List.mem_singleton] at hb
      subst hb
      exact fun hab => h' (hab ▸ ha)
    · intro n k' hn
      simp [hn]

/-- "Raises ValueError if a repeat initial guess is found": it does not, the entry is replaced. -/
theorem addMeta_repeat_violated : addMeta [("mass", .state)] "mass" .control = [("mass", .control)] := by decide

/-- The classes of the energy-state and the solved phases share the dictionary of `FlightPhaseBase`
(aviary/mission/flight_phase_builder.py:183, 456-470; aviary/mission/energy_state/phases/energy_phase.py:16-23; aviary/mission/solved_two_dof/phases/solved_twodof_phase.py:319-331). -/
def baseMeta : List (String × Kind) := [("altitude", .control), ("mach", .control), ("throttle", .control), ("mass", .state)]
def energyMeta : List (String × Kind) := [("time", .integration), ("distance", .state)]
def solvedMeta : List (String × Kind) :=
  [("distance", .integration), ("angle_of_attack", .polynomialControl), ("time", .state)]

/-- The dictionary after the modules were imported in the given order. -/
def importMeta (l : List (String × Kind)) : Meta := l.foldl (fun m e => addMeta m e.1 e.2) []

/-- Which variable a guess for time or distance sets depends on the order in which the modules are imported; whichever
comes first has its entries replaced by those of the other class. -/
theorem sharedMeta_violated :
    ("time", Kind.state) ∈ importMeta (baseMeta ++ energyMeta ++ solvedMeta) ∧
    ("distance", Kind.integration) ∈ importMeta (baseMeta ++ energyMeta ++ solvedMeta) ∧
    ("time", Kind.integration) ∈ importMeta (baseMeta ++ solvedMeta ++ energyMeta) ∧
    ("distance", Kind.state) ∈ importMeta (baseMeta ++ solvedMeta ++ energyMeta) := by decide

/-- Guesses are accepted by the builder exactly if all their names are registered. -/
theorem validate_ok_iff (m : Meta) (g : List Guess) :
    validate m g = .ok () ↔ ∀ x ∈ g, x.key ∈ m.map Prod.fst := by
  unfold validate
  by_cases h : g.all (fun x => m.any (fun e => e.1 == x.key)) = true
  · rw [if_pos h]
    simp only [true_iff]
    intro x hx
    exact (meta_any m x.key).1 (List.all_eq_true.1 h x hx)
  · rw [if_neg h]
    simp only [reduceCtorEq, false_iff]
    intro hall
    exact h (List.all_eq_true.2 fun x hx => (meta_any m x.key).2 (hall x hx))

/-- Applying the guesses of a builder: the names reported as not applied are those without a guess, and every guess
that was accepted has been applied. -/
theorem applyAll_spec {m : Meta} {g : List Guess} (hg : IsDict g) (hv : validate m g = .ok ()) {cs : List Call}
    {na : List String} (h : applyAll g m = .ok (cs, na)) :
    (∀ n, n ∈ na ↔ n ∈ m.map Prod.fst ∧ n ∉ g.map (·.key)) ∧
      (∀ x ∈ g, ∃ k ds, (x.key, k) ∈ m ∧ applyKind k x = .ok ds ∧ ∀ d ∈ ds, d ∈ cs) ∧
      (∀ c ∈ cs, ∃ x ∈ g, ∃ k ds, (x.key, k) ∈ m ∧ applyKind k x = .ok ds ∧ c ∈ ds) := by
  have huniq : ∀ x ∈ g, ∀ y ∈ g, x.key = y.key → x = y := by
    intro x hx y hy hxy
    exact List.inj_on_of_nodup_map hg hx hy hxy
  have key : ∀ (m : Meta) (cs : List Call) (na : List String), applyAll g m = .ok (cs, na) →
      (∀ n, n ∈ na ↔ n ∈ m.map Prod.fst ∧ n ∉ g.map (·.key)) ∧
      (∀ x ∈ g, ∀ k, (x.key, k) ∈ m → ∃ ds, applyKind k x = .ok ds ∧ ∀ d ∈ ds, d ∈ cs) ∧
      (∀ c ∈ cs, ∃ x ∈ g, ∃ k ds, (x.key, k) ∈ m ∧ applyKind k x = .ok ds ∧ c ∈ ds) := by
    intro m
    induction m with
    | nil =>
      intro cs na h
      simp only [applyAll, Except.ok.injEq, Prod.mk.injEq] at h
      obtain ⟨rfl, rfl⟩ := h
      simp
    | cons e m ih =>
      obtain ⟨name, k⟩ := e
      intro cs na h
      simp only [applyAll] at h
      cases hf : g.find? (fun x => x.key == name) with
      | none =>
        rw [hf] at h
        simp only at h
        have hnone : name ∉ g.map (·.key) := by
          intro hm
          obtain ⟨x, hx, hxk⟩ := List.mem_map.1 hm
          have := List.find?_eq_none.1 hf x hx
          exact this (by simpa using hxk)
        cases hr : applyAll g m with
        | error e => rw [hr] at h; cases h
        | ok r =>
          rw [hr] at h
          simp only [Except.ok.injEq, Prod.mk.injEq] at h
          obtain ⟨rfl, rfl⟩ := h
          obtain ⟨h1, h2, h3⟩ := ih r.1 r.2 hr
          refine ⟨?_, ?_, ?_⟩
          · intro n
            rw [List.mem_cons, h1, List.map_cons, List.mem_cons]
            constructor
            · rintro (rfl | ⟨h, h'⟩)
              · exact ⟨.inl rfl, hnone⟩
              · exact ⟨.inr h, h'⟩
            · rintro ⟨rfl | h, h'⟩
              · exact .inl rfl
              · exact .inr ⟨h, h'⟩
          · intro x hx k' hk'
            rcases List.mem_cons.1 hk' with he | he
            · simp only [Prod.mk.injEq] at he
              exact absurd (he.1 ▸ List.mem_map_of_mem hx) hnone
            · exact h2 x hx k' he
          · intro c hc
            obtain ⟨x, hx, k', ds, hm, hd, hcd⟩ := h3 c hc
            exact ⟨x, hx, k', ds, List.mem_cons_of_mem _ hm, hd, hcd⟩
      | some y =>
        rw [hf] at h
        simp only at h
        have hy := List.mem_of_find?_eq_some hf
        have hyk : y.key = name := by simpa using List.find?_some hf
        cases ha : applyKind k y with
        | error e => rw [ha] at h; cases h
        | ok ds =>
          rw [ha] at h
          simp only at h
          cases hr : applyAll g m with
          | error e => rw [hr] at h; cases h
          | ok r =>
            rw [hr] at h
            simp only [Except.ok.injEq, Prod.mk.injEq] at h
            obtain ⟨rfl, rfl⟩ := h
            obtain ⟨h1, h2, h3⟩ := ih r.1 r.2 hr
            refine ⟨?_, ?_, ?_⟩
            · intro n
              rw [h1, List.map_cons, List.mem_cons]
              constructor
              · rintro ⟨h, h'⟩; exact ⟨.inr h, h'⟩
              · rintro ⟨rfl | h, h'⟩
                · exact absurd (hyk ▸ List.mem_map_of_mem hy) h'
                · exact ⟨h, h'⟩
            · intro x hx k' hk'
              rcases List.mem_cons.1 hk' with he | he
              · simp only [Prod.mk.injEq] at he
                have hxy := huniq x hx y hy (he.1.trans hyk.symm)
                subst hxy
                rw [he.2]
                exact ⟨ds, ha, fun d hd => List.mem_append_left _ hd⟩
              · obtain ⟨ds', hd', hin⟩ := h2 x hx k' he
                exact ⟨ds', hd', fun d hd => List.mem_append_right _ (hin d hd)⟩
            · intro c hc
              rcases List.mem_append.1 hc with hc | hc
              · exact ⟨y, hy, k, ds, by rw [hyk]; exact List.mem_cons_self .., ha, hc⟩
              · obtain ⟨x, hx, k', ds', hm, hd, hcd⟩ := h3 c hc
                exact ⟨x, hx, k', ds', List.mem_cons_of_mem _ hm, hd, hcd⟩
  obtain ⟨h1, h2, h3⟩ := key m cs na h
  refine ⟨h1, ?_, h3⟩
  intro x hx
  obtain ⟨e, he, hek⟩ := List.mem_map.1 ((validate_ok_iff m g).1 hv x hx)
  obtain ⟨n, k⟩ := e
  simp only at hek
  subst hek
  obtain ⟨ds, hd, hin⟩ := h2 x hx k he
  exact ⟨k, ds, he, hd, hin⟩

example : applyAll [⟨"time", .list [some 0, some 50], "s"⟩, ⟨"mass", .flt 150000, "lbm"⟩]
    (importMeta (baseMeta ++ energyMeta)) = .ok ([⟨.phase "states:mass", .raw (.flt 150000), "lbm"⟩,
      ⟨.tInitial, .num (some 0), "s"⟩, ⟨.tDuration, .num (some 50), "s"⟩], ["altitude", "mach", "throttle", "distance"]) := by
  decide +kernel

/-- Where a builder sets a guess: controls and polynomial controls below `controls:`, parameters below `parameters:`, states
below `states:`, each once and in the units given, and a pair for the integration variable sets its start and its duration. -/
theorem applyKind_spec (k : Kind) (g : Guess) :
    (∀ a b, k = .integration → g.val = .list [a, b] →
      applyKind k g = .ok [⟨.tInitial, .num a, g.units⟩, ⟨.tDuration, .num b, g.units⟩]) ∧
    (k = .integration → (∀ a b, g.val ≠ .list [a, b]) → ∃ e, applyKind k g = .error e) ∧
    (k ≠ .integration → ∃ c, applyKind k g = .ok [c] ∧ c.units = g.units ∧
      (k = .plain → c.dest = .prob g.key) ∧
      (k = .control ∨ k = .polynomialControl → c.dest = .phase ("controls:" ++ g.key)) ∧
      (k = .parameter → c.dest = .phase ("parameters:" ++ g.key)) ∧
      (k = .state → c.dest = .phase ("states:" ++ g.key)) ∧
      (∀ l, g.val = .list l → c.val = .interp g.key [] l) ∧
      ((∀ l, g.val ≠ .list l) → c.val = .raw g.val)) := by
  obtain ⟨key, v, u⟩ := g
  refine ⟨?_, ?_, ?_⟩
  · rintro a b rfl rfl
    rfl
  · rintro rfl h
    unfold applyKind
    dsimp only
    split
    · exact absurd rfl (h _ _)
    · exact ⟨_, rfl⟩
    · exact ⟨_, rfl⟩
  · intro hk
    cases k <;> first | exact absurd rfl hk | skip
    all_goals
      rcases v with _ | _ | _ <;> exact ⟨_, rfl, rfl, by simp [completeKey], by simp [completeKey], by simp [completeKey],
        by simp [completeKey], by simp, by simp⟩

/-! ### Registry of builder types -/

/-- A type is registered at most once. -/
theorem register_nodup {types types' : List String} {t : String} (h : register types t = .ok types')
    (hn : types.Nodup) : types'.Nodup ∧ ∀ s, s ∈ types' ↔ s ∈ types ∨ s = t := by
  unfold register at h
  by_cases ht : t ∈ types
  · rw [if_pos ht] at h; cases h
  · rw [if_neg ht] at h
    cases h
    refine ⟨?_, by simp⟩
    rw [List.nodup_append]
    refine ⟨hn, by simp, ?_⟩
    intro a ha b hb
    simp only [List.mem_singleton] at hb
    subst hb
    exact fun hab => ht (hab ▸ ha)

/-- "The first result that is not None": no result is `None`, so every phase info gets a builder of the type that was
registered first, and an error of that type is not followed by an attempt with another. -/
theorem builderType_violated (build : String → Except Err String) (t : String) (ts ts' : List String) :
    phaseInfoToBuilder build true (t :: ts) = build t ∧
      phaseInfoToBuilder build true (t :: ts) = phaseInfoToBuilder build true (t :: ts') := by
  have : ∀ l, phaseInfoToBuilder build true (t :: l) = build t := by
    intro l
    simp only [phaseInfoToBuilder, fromPhaseInfo, if_true]
    cases build t <;> rfl
  exact ⟨this ts, (this ts).trans (this ts').symm⟩

/-- Without user options the answer is a `KeyError`, not the documented `ValueError`. -/
theorem builder_noOptions_violated (build : String → Except Err String) (t : String) (ts : List String) :
    phaseInfoToBuilder build false (t :: ts) = .error .keyError := rfl

end Verif.InitGuess
