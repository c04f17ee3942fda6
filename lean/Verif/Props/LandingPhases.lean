import Verif.Model.LandingPhases
import Verif.Lemmas.Dict
import Mathlib.Data.Real.Basic
import Mathlib.Data.Rat.Cast.Order
import Mathlib.Tactic.Linarith
import Mathlib.Tactic.NormNum

/-!
# Properties of the phases of the detailed landing (C134)
-/

namespace Verif.LandingPhases

open Verif Verif.LowSpeed

theorem bind_ok {α β : Type} {x : Except Err α} {f : α → Except Err β} {y : β} :
    (x >>= f) = .ok y ↔ ∃ a, x = .ok a ∧ f a = .ok y := by
  cases x with
  | error e => simp [bind, Except.bind]
  | ok a => simp [bind, Except.bind]

/-! ### Options -/

theorem has_set (d : Dict String ℚ) (k : String) (v : ℚ) (hk : d.has k = true) (j : String) : (d.set k v).has j = d.has j := by
  unfold Dict.has
  rw [Dict.get?_set]
  by_cases h : k = j
  · subst h
    rw [if_pos rfl]
    exact hk.symm
  · rw [if_neg h]

/-- Options are accepted exactly if they are declared. -/
theorem setAll_ok_iff (d : Dict String ℚ) (u : List (String × ℚ)) : (∃ o, setAll d u = .ok o) ↔ ∀ x ∈ u, d.has x.1 = true := by
  induction u generalizing d with
  | nil => simp [setAll]
  | cons x u ih =>
    obtain ⟨k, v⟩ := x
    unfold setAll
    rw [List.forall_mem_cons]
    by_cases h : d.has k = true
    · rw [if_pos h, ih]
      simp only [has_set d k v h, h, true_and]
    · rw [if_neg h]
      simp [h]

/-- An option has the last value given by the user, otherwise its default. -/
theorem setAll_get (d : Dict String ℚ) (u : List (String × ℚ)) (o : Dict String ℚ) (h : setAll d u = .ok o) (k : String) :
    o.get? k = ((u.reverse.find? fun x => x.1 == k).map Prod.snd).or (d.get? k) := by
  induction u generalizing d with
  | nil =>
    simp only [setAll, Except.ok.injEq] at h
    simp [h]
  | cons x u ih =>
    obtain ⟨j, v⟩ := x
    unfold setAll at h
    by_cases hj : d.has j = true
    · rw [if_pos hj] at h
      rw [ih _ h, List.reverse_cons, List.find?_append, Dict.get?_set]
      cases hf : u.reverse.find? fun x => x.1 == k with
      | some y => rfl
      | none =>
        by_cases e : j = k
        · subst e
          simp
        · have hb : (j == k) = false := by simp [e]
          simp [hb, e]
    · rw [if_neg hj] at h
      cases h

theorem opt_ok {k : LKind} {u : List (String × ℚ)} {o : Dict String ℚ} (h : setAll (declared k) u = .ok o) {n : String}
    (hn : (declared k).has n = true) : ∃ v, opt o n = .ok v := by
  unfold opt
  rw [setAll_get _ _ _ h n]
  obtain ⟨v, hv⟩ := Option.isSome_iff_exists.mp hn
  rw [hv]
  cases (u.reverse.find? fun x => x.1 == n).map Prod.snd with
  | none => exact ⟨v, rfl⟩
  | some w => exact ⟨w, rfl⟩

theorem opt_eq {d : Dict String ℚ} {u : List (String × ℚ)} {o : Dict String ℚ} (h : setAll d u = .ok o) {n : String} {v : ℚ}
    (hv : opt o n = .ok v) : ((u.reverse.find? fun x => x.1 == n).map Prod.snd).or (d.get? n) = some v := by
  unfold opt at hv
  rw [← setAll_get _ _ _ h n]
  cases hg : o.get? n with
  | none => rw [hg] at hv; cases hv
  | some w =>
    rw [hg] at hv
    exact congrArg some (Except.ok.inj hv)

/-! ### Which phases can be built -/

/-- What a builder needs to know about the airport. -/
def Needs : LKind → Option Av → Prop
  | .approach, av | .micP3, av => ∃ a x, av = some a ∧ a.airport = some x
  | .obstacle, av => ∃ a x y, av = some a ∧ a.airport = some x ∧ a.obstacle = some (some y)
  | _, _ => True

theorem airport_ok_iff (av : Option Av) (x : ℚ) : airport av = .ok x ↔ ∃ a, av = some a ∧ a.airport = some x := by
  cases av with
  | none => simp [airport]
  | some a =>
    cases h : a.airport with
    | none => simp [airport, h]
    | some y => simp [airport, h]

theorem obstacle_ok_iff (av : Option Av) (x : ℚ) : obstacleHeight av = .ok x ↔ ∃ a, av = some a ∧ a.obstacle = some (some x) := by
  cases av with
  | none => simp [obstacleHeight]
  | some a =>
    cases h : a.obstacle with
    | none => simp [obstacleHeight, h]
    | some y => cases y <;> simp [obstacleHeight, h]

/-- A phase is built exactly if all options given are declared and the altitudes it needs are known: every option which is read is declared. -/
theorem build_ok_iff (k : LKind) (u : List (String × ℚ)) (av : Option Av) :
    (∃ p, build k u av = .ok p) ↔ (∀ x ∈ u, (declared k).has x.1 = true) ∧ Needs k av := by
  rw [← setAll_ok_iff]
  constructor
  · rintro ⟨p, hp⟩
    obtain ⟨o, ho, h⟩ := bind_ok.mp hp
    refine ⟨⟨o, ho⟩, ?_⟩
    cases k with
    | approach =>
      simp only [buildWith, buildApproach, bind_ok] at h
      obtain ⟨_, -, _, -, _, -, _, -, _, -, _, -, _, -, _, -, _, -, _, -, x, hx, -⟩ := h
      obtain ⟨a, h1, h2⟩ := (airport_ok_iff av x).mp hx
      exact ⟨a, x, h1, h2⟩
    | micP3 =>
      simp only [buildWith, buildMicP3, buildApproach, bind_ok] at h
      obtain ⟨_, ⟨_, -, _, -, _, -, _, -, _, -, _, -, _, -, _, -, _, -, _, -, x, hx, -⟩, -⟩ := h
      obtain ⟨a, h1, h2⟩ := (airport_ok_iff av x).mp hx
      exact ⟨a, x, h1, h2⟩
    | obstacle =>
      simp only [buildWith, buildObstacle, bind_ok] at h
      obtain ⟨_, -, _, -, _, -, _, -, y, hy, x, hx, -⟩ := h
      obtain ⟨a, h1, h2⟩ := (airport_ok_iff av x).mp hx
      obtain ⟨b, h3, h4⟩ := (obstacle_ok_iff av y).mp hy
      rw [h1, Option.some.injEq] at h3
      subst h3
      exact ⟨a, x, y, h1, h2, h4⟩
    | flare => trivial
    | touchdown => trivial
    | stop => trivial
  · rintro ⟨⟨o, ho⟩, hn⟩
    unfold build
    rw [ho]
    have e : ∀ n, (declared k).has n = true → ∃ v, opt o n = .ok v := fun n h => opt_ok ho h
    show ∃ p, buildWith k o av = .ok p
    cases k with
    | approach =>
      obtain ⟨a, x, rfl, hx⟩ := hn
      obtain ⟨v1, h1⟩ := e "max_duration" rfl
      obtain ⟨v2, h2⟩ := e "time_duration_ref" rfl
      obtain ⟨v3, h3⟩ := e "time_initial_ref" rfl
      obtain ⟨v4, h4⟩ := e "distance_max" rfl
      obtain ⟨v5, h5⟩ := e "altitude_ref" rfl
      obtain ⟨v6, h6⟩ := e "max_velocity" rfl
      obtain ⟨v7, h7⟩ := e "lower_angle_of_attack" rfl
      obtain ⟨v8, h8⟩ := e "upper_angle_of_attack" rfl
      obtain ⟨v9, h9⟩ := e "angle_of_attack_ref" rfl
      obtain ⟨v10, h10⟩ := e "initial_height" rfl
      have h11 : airport (some a) = .ok x := (airport_ok_iff _ _).mpr ⟨a, rfl, hx⟩
      rw [buildWith, buildApproach, h1, h2, h3, h4, h5, h6, h7, h8, h9, h10, h11]
      exact ⟨_, rfl⟩
    | micP3 =>
      obtain ⟨a, x, rfl, hx⟩ := hn
      obtain ⟨v1, h1⟩ := e "max_duration" rfl
      obtain ⟨v2, h2⟩ := e "time_duration_ref" rfl
      obtain ⟨v3, h3⟩ := e "time_initial_ref" rfl
      obtain ⟨v4, h4⟩ := e "distance_max" rfl
      obtain ⟨v5, h5⟩ := e "altitude_ref" rfl
      obtain ⟨v6, h6⟩ := e "max_velocity" rfl
      obtain ⟨v7, h7⟩ := e "lower_angle_of_attack" rfl
      obtain ⟨v8, h8⟩ := e "upper_angle_of_attack" rfl
      obtain ⟨v9, h9⟩ := e "angle_of_attack_ref" rfl
      obtain ⟨v10, h10⟩ := e "initial_height" rfl
      have h11 : airport (some a) = .ok x := (airport_ok_iff _ _).mpr ⟨a, rfl, hx⟩
      rw [buildWith, buildMicP3, buildApproach, h1, h2, h3, h4, h5, h6, h7, h8, h9, h10, h11]
      exact ⟨_, rfl⟩
    | obstacle =>
      obtain ⟨a, x, y, rfl, hx, hy⟩ := hn
      obtain ⟨v1, h1⟩ := e "max_duration" rfl
      obtain ⟨v4, h4⟩ := e "distance_max" rfl
      obtain ⟨v5, h5⟩ := e "altitude_ref" rfl
      obtain ⟨v6, h6⟩ := e "max_velocity" rfl
      have h11 : airport (some a) = .ok x := (airport_ok_iff _ _).mpr ⟨a, rfl, hx⟩
      have h12 : obstacleHeight (some a) = .ok y := (obstacle_ok_iff _ _).mpr ⟨a, rfl, hy⟩
      rw [buildWith, buildObstacle, h1, h4, h5, h6, h11, h12]
      exact ⟨_, rfl⟩
    | flare =>
      obtain ⟨v1, h1⟩ := e "max_duration" rfl
      obtain ⟨v2, h2⟩ := e "time_duration_ref" rfl
      obtain ⟨v3, h3⟩ := e "time_initial_ref" rfl
      obtain ⟨v4, h4⟩ := e "distance_max" rfl
      obtain ⟨v5, h5⟩ := e "altitude_ref" rfl
      obtain ⟨v6, h6⟩ := e "max_velocity" rfl
      obtain ⟨v7, h7⟩ := e "lower_angle_of_attack" rfl
      obtain ⟨v8, h8⟩ := e "upper_angle_of_attack" rfl
      obtain ⟨v9, h9⟩ := e "angle_of_attack_ref" rfl
      rw [buildWith, buildFlare, h1, h2, h3, h4, h5, h6, h7, h8, h9]
      exact ⟨_, rfl⟩
    | touchdown =>
      obtain ⟨v1, h1⟩ := e "max_duration" rfl
      obtain ⟨v2, h2⟩ := e "time_duration_ref" rfl
      obtain ⟨v3, h3⟩ := e "time_initial_ref" rfl
      obtain ⟨v4, h4⟩ := e "distance_max" rfl
      obtain ⟨v6, h6⟩ := e "max_velocity" rfl
      obtain ⟨v7, h7⟩ := e "max_angle_of_attack" rfl
      rw [buildWith, buildTouchdown, h1, h2, h3, h4, h6, h7]
      exact ⟨_, rfl⟩
    | stop =>
      obtain ⟨v1, h1⟩ := e "max_duration" rfl
      obtain ⟨v2, h2⟩ := e "time_duration_ref" rfl
      obtain ⟨v3, h3⟩ := e "time_initial_ref" rfl
      obtain ⟨v4, h4⟩ := e "distance_max" rfl
      obtain ⟨v6, h6⟩ := e "max_velocity" rfl
      rw [buildWith, buildStop, h1, h2, h3, h4, h6]
      exact ⟨_, rfl⟩

example : ∃ p, build .approach [("initial_height", 394)] (some ⟨some 0, none⟩) = .ok p := ⟨_, rfl⟩

/-- Without options of the aircraft, which are said to be optional, the three phases in the air before the flare fail. -/
theorem optional_violated (k : LKind) (hk : k = .approach ∨ k = .micP3 ∨ k = .obstacle) : build k [] none = .error .attributeError := by
  rcases hk with rfl | rfl | rfl <;> rfl

/-- A height of the obstacle which is missing is not the TypeError written for it, which only comes for a stored `None`. -/
theorem missing_obstacle_violated (a : Option ℚ) :
    build .obstacle [] (some ⟨a, none⟩) = .error .keyError ∧ build .obstacle [] (some ⟨a, some none⟩) = .error .typeError := ⟨rfl, rfl⟩

/-! ### What is asked for -/

/-- Ends and bounds of the states of a phase. -/
def shape : LKind → List (Var × Bool × Bool × Option ℚ × Option ℚ)
  | .approach => [(.distance, false, false, none, some 0), (.altitude, false, false, none, none), (.velocity, false, false, some 0, none),
      (.mass, true, false, some 0, none)]
  | .micP3 => [(.distance, false, true, none, some 0), (.altitude, false, false, none, none), (.velocity, false, true, some 0, none),
      (.mass, false, false, some 0, none)]
  | .obstacle => [(.distance, true, false, some 0, none), (.altitude, false, false, some 0, none), (.velocity, true, false, some 0, none),
      (.mass, false, false, some 0, none)]
  | .flare => [(.distance, false, false, some 0, none), (.altitude, false, true, some 0, none), (.velocity, false, false, some 0, none),
      (.mass, false, false, some 0, none)]
  | .touchdown => [(.distance, false, false, some 0, none), (.velocity, false, false, some 0, none), (.mass, false, false, some 0, none)]
  | .stop => [(.distance, false, false, some 0, none), (.velocity, false, true, some 0, none), (.mass, false, false, some 0, none)]

/-- The value of an option: what the user gave, or its default. -/
def value (k : LKind) (u : List (String × ℚ)) (n : String) : ℚ :=
  (((u.reverse.find? fun x => x.1 == n).map Prod.snd).or ((declared k).get? n)).getD 0

theorem opt_value {k : LKind} {u : List (String × ℚ)} {o : Dict String ℚ} (h : setAll (declared k) u = .ok o) {n : String} {v : ℚ}
    (hv : opt o n = .ok v) : v = value k u n := by
  unfold value
  rw [opt_eq h hv]
  rfl

/-- With the defaults the approach ends at the altitude where it began. -/
theorem default_heights : value .approach [] "initial_height" = value .micP3 [] "initial_height" := rfl

attribute [local irreducible] value

/-- The height above the airport at which a phase has to begin. -/
def height (k : LKind) (u : List (String × ℚ)) (av : Option Av) : Option ℚ := match k with
  | .approach | .micP3 => some (value k u "initial_height")
  | .obstacle => (av.bind Av.obstacle).join
  | _ => none

/-- Everything asked for by a builder that can be built. -/
theorem build_spec {k : LKind} {u : List (String × ℚ)} {av : Option Av} {p : Phase} (h : build k u av = .ok p) :
    (p.fixTime = decide (k = .obstacle)) ∧ p.maxDuration = value k u "max_duration" ∧
    p.states.map (fun s => (s.var, s.fixI, s.fixF, s.lower, s.upper)) = shape k ∧
    p.states.map (fun s => (s.var, s.ref)) = (shape k).map (fun s => (s.1, match s.1 with
      | .distance => value k u "distance_max"
      | .altitude => value k u "altitude_ref"
      | .velocity => value k u "max_velocity"
      | _ => 50000)) ∧
    p.initialAltitude = (height k u av).map (· + ((av.bind Av.airport).getD 0)) ∧
    (p.aoaParam = if k = .stop then some 0 else none) ∧ (p.netAlphaRate = decide (k = .flare)) ∧
    (p.controls.filter fun c => c.var = .aoa) = (match k with
      | .approach | .micP3 => [⟨.aoa, true, false, false, false, some (value k u "lower_angle_of_attack"), some (value k u "upper_angle_of_attack")⟩]
      | .obstacle => [⟨.aoa, false, false, false, false, none, none⟩]
      | .flare => [⟨.aoa, true, true, false, false, some (value k u "lower_angle_of_attack"), some (value k u "upper_angle_of_attack")⟩]
      | .touchdown => [⟨.aoa, true, true, false, true, some 0, some (value k u "max_angle_of_attack")⟩]
      | .stop => []) ∧
    (p.controls.filter fun c => c.var = .throttle) = [if k = .flare then ⟨.throttle, true, false, false, false, some 0, some (1 / 5)⟩
      else fixedThrottle] := by
  obtain ⟨o, ho, hb⟩ := bind_ok.mp h
  cases k with
  | approach =>
    simp only [buildWith, buildApproach, bind_ok] at hb
    obtain ⟨v1, h1, _, -, _, -, v4, h4, v5, h5, v6, h6, v7, h7, v8, h8, _, -, v10, h10, x, hx, hp⟩ := hb
    obtain ⟨a, rfl, ha⟩ := (airport_ok_iff _ _).mp hx
    obtain rfl := Except.ok.inj hp
    obtain rfl := opt_value ho h1
    obtain rfl := opt_value ho h4
    obtain rfl := opt_value ho h5
    obtain rfl := opt_value ho h6
    obtain rfl := opt_value ho h7
    obtain rfl := opt_value ho h8
    obtain rfl := opt_value ho h10
    refine ⟨rfl, rfl, rfl, rfl, ?_, rfl, rfl, rfl, rfl⟩
    simp [height, ha]
  | micP3 =>
    simp only [buildWith, buildMicP3, buildApproach, bind_ok] at hb
    obtain ⟨q, ⟨v1, h1, _, -, _, -, v4, h4, v5, h5, v6, h6, v7, h7, v8, h8, _, -, v10, h10, x, hx, hq⟩, hp⟩ := hb
    obtain ⟨a, rfl, ha⟩ := (airport_ok_iff _ _).mp hx
    obtain rfl := Except.ok.inj hp
    obtain rfl := Except.ok.inj hq
    obtain rfl := opt_value ho h1
    obtain rfl := opt_value ho h4
    obtain rfl := opt_value ho h5
    obtain rfl := opt_value ho h6
    obtain rfl := opt_value ho h7
    obtain rfl := opt_value ho h8
    obtain rfl := opt_value ho h10
    refine ⟨rfl, rfl, rfl, rfl, ?_, rfl, rfl, rfl, rfl⟩
    simp [height, ha]
  | obstacle =>
    simp only [buildWith, buildObstacle, bind_ok] at hb
    obtain ⟨v1, h1, v4, h4, v5, h5, v6, h6, y, hy, x, hx, hp⟩ := hb
    obtain ⟨a, rfl, ha⟩ := (airport_ok_iff _ _).mp hx
    obtain ⟨b, hb1, hb2⟩ := (obstacle_ok_iff _ _).mp hy
    obtain rfl := Option.some.inj hb1
    obtain rfl := Except.ok.inj hp
    obtain rfl := opt_value ho h1
    obtain rfl := opt_value ho h4
    obtain rfl := opt_value ho h5
    obtain rfl := opt_value ho h6
    refine ⟨rfl, rfl, rfl, rfl, ?_, rfl, rfl, rfl, rfl⟩
    simp [height, ha, hb2]
  | flare =>
    simp only [buildWith, buildFlare, bind_ok] at hb
    obtain ⟨v1, h1, _, -, _, -, v4, h4, v5, h5, v6, h6, v7, h7, v8, h8, _, -, hp⟩ := hb
    obtain rfl := Except.ok.inj hp
    obtain rfl := opt_value ho h1
    obtain rfl := opt_value ho h4
    obtain rfl := opt_value ho h5
    obtain rfl := opt_value ho h6
    obtain rfl := opt_value ho h7
    obtain rfl := opt_value ho h8
    exact ⟨rfl, rfl, rfl, rfl, rfl, rfl, rfl, rfl, rfl⟩
  | touchdown =>
    simp only [buildWith, buildTouchdown, bind_ok] at hb
    obtain ⟨v1, h1, _, -, _, -, v4, h4, v6, h6, v7, h7, hp⟩ := hb
    obtain rfl := Except.ok.inj hp
    obtain rfl := opt_value ho h1
    obtain rfl := opt_value ho h4
    obtain rfl := opt_value ho h6
    obtain rfl := opt_value ho h7
    exact ⟨rfl, rfl, rfl, rfl, rfl, rfl, rfl, rfl, rfl⟩
  | stop =>
    simp only [buildWith, buildStop, bind_ok] at hb
    obtain ⟨v1, h1, _, -, _, -, v4, h4, v6, h6, hp⟩ := hb
    obtain rfl := Except.ok.inj hp
    obtain rfl := opt_value ho h1
    obtain rfl := opt_value ho h4
    obtain rfl := opt_value ho h6
    exact ⟨rfl, rfl, rfl, rfl, rfl, rfl, rfl, rfl, rfl⟩

/-- The aircraft is in the air before the touchdown and on the ground after it; brakes are used from the moment the nose is down. Phases in the
air have more segments. -/
theorem ground_iff (k : LKind) : (odeKwargs k = some (false, true) ↔ k = .stop) ∧ ((∃ b, odeKwargs k = some (false, b)) ↔ k = .touchdown ∨ k = .stop) ∧
    ((transcription k).1 = 3 ↔ ∃ b, odeKwargs k = some (false, b)) ∧ (transcription k).2 = 3 ∧
    ((∃ b, odeKwargs k = some (false, b)) ↔ ∀ s ∈ shape k, s.1 ≠ .altitude) := by
  cases k <;> simp [odeKwargs, transcription, shape]

/-! ### Solutions -/

/-- Values at the ends of a phase meet what is asked for; fixed ends keep the values of the initial guess. -/
structure Solves (p : Phase) (g0 g1 s0 s1 : Var → ℝ) : Prop where
  time : p.fixTime = true → s0 .time = g0 .time
  duration : 1 ≤ s1 .time - s0 .time ∧ s1 .time - s0 .time ≤ p.maxDuration
  fixI : ∀ s ∈ p.states, s.fixI = true → s0 s.var = g0 s.var
  fixF : ∀ s ∈ p.states, s.fixF = true → s1 s.var = g1 s.var
  lower : ∀ s ∈ p.states, ∀ x ∈ s.lower, (x : ℝ) ≤ s0 s.var ∧ (x : ℝ) ≤ s1 s.var
  upper : ∀ s ∈ p.states, ∀ x ∈ s.upper, s0 s.var ≤ x ∧ s1 s.var ≤ x
  altitude : ∀ x ∈ p.initialAltitude, s0 .altitude = x
  aoa : ∀ c ∈ p.controls, c.var = .aoa → (c.fixI = true → s0 .aoa = g0 .aoa) ∧ (c.fixF = true → s1 .aoa = g1 .aoa) ∧
    (∀ x ∈ c.lower, (x : ℝ) ≤ s0 .aoa ∧ (x : ℝ) ≤ s1 .aoa) ∧ ∀ x ∈ c.upper, s0 .aoa ≤ x ∧ s1 .aoa ≤ x
  param : ∀ x ∈ p.aoaParam, s0 .aoa = x ∧ s1 .aoa = x

theorem state_of_shape {k : LKind} {u : List (String × ℚ)} {av : Option Av} {p : Phase} (h : build k u av = .ok p)
    {v : Var} {i f : Bool} {l m : Option ℚ} (hs : (v, i, f, l, m) ∈ shape k) :
    ∃ s ∈ p.states, s.var = v ∧ s.fixI = i ∧ s.fixF = f ∧ s.lower = l ∧ s.upper = m := by
  rw [← (build_spec h).2.2.1, List.mem_map] at hs
  obtain ⟨s, hs, e⟩ := hs
  simp only [Prod.mk.injEq] at e
  exact ⟨s, hs, e⟩

/-- The end of a phase in a variable is that of the initial guess where it is fixed. -/
theorem fixed_final {k : LKind} {u : List (String × ℚ)} {av : Option Av} {p : Phase} (h : build k u av = .ok p) {g0 g1 s0 s1 : Var → ℝ}
    (hs : Solves p g0 g1 s0 s1) : (k = .stop → s1 .velocity = g1 .velocity) ∧ (k = .flare → s1 .altitude = g1 .altitude) ∧
      (k = .micP3 → s1 .distance = g1 .distance ∧ s1 .velocity = g1 .velocity) := by
  refine ⟨?_, ?_, ?_⟩
  · rintro rfl
    obtain ⟨s, hm, hv, -, hf, -⟩ := state_of_shape h (v := .velocity) (i := false) (f := true) (l := some 0) (m := none) (by simp [shape])
    rw [← hv]
    exact hs.fixF s hm hf
  · rintro rfl
    obtain ⟨s, hm, hv, -, hf, -⟩ := state_of_shape h (v := .altitude) (i := false) (f := true) (l := some 0) (m := none) (by simp [shape])
    rw [← hv]
    exact hs.fixF s hm hf
  · rintro rfl
    obtain ⟨s, hm, hv, -, hf, -⟩ := state_of_shape h (v := .distance) (i := false) (f := true) (l := none) (m := some 0) (by simp [shape])
    obtain ⟨t, hm', hv', -, hf', -⟩ := state_of_shape h (v := .velocity) (i := false) (f := true) (l := some 0) (m := none) (by simp [shape])
    refine ⟨?_, ?_⟩
    · rw [← hv]
      exact hs.fixF s hm hf
    · rw [← hv']
      exact hs.fixF t hm' hf'

/-- No touchdown below sea level: whatever the airport, the flare ends at zero or above. -/
theorem touchdown_altitude {u : List (String × ℚ)} {av : Option Av} {p : Phase} (h : build .flare u av = .ok p) {g0 g1 s0 s1 : Var → ℝ}
    (hs : Solves p g0 g1 s0 s1) : 0 ≤ s1 .altitude := by
  obtain ⟨s, hm, hv, -, -, hl, -⟩ := state_of_shape h (v := .altitude) (i := false) (f := true) (l := some 0) (m := none) (by simp [shape])
  have := (hs.lower s hm 0 (by rw [hl]; rfl)).2
  rw [hv] at this
  simpa using this

/-- So that a guess of the touchdown at the altitude of an airport below the sea has no solution. -/
theorem below_sea_violated {u : List (String × ℚ)} {a : Av} {p : Phase} (h : build .flare u (some a) = .ok p) {g0 g1 : Var → ℝ} {x : ℚ}
    (_hx : a.airport = some x) (hneg : x < 0) (hg : g1 .altitude = x) : ¬ ∃ s0 s1, Solves p g0 g1 s0 s1 := by
  rintro ⟨s0, s1, hs⟩
  have h1 := touchdown_altitude h hs
  rw [(fixed_final h hs).2.1 rfl, hg] at h1
  have : (x : ℝ) < 0 := by exact_mod_cast hneg
  linarith

/-- The altitude of the airport itself is not asked for at the touchdown: a flare to any altitude of the guess at or above the sea is a solution. -/
theorem airport_touchdown_violated (y : ℝ) (hy : 0 ≤ y) (a : Av) :
    ∃ p g0 g1 s0 s1, build .flare [] (some a) = .ok p ∧ Solves p g0 g1 s0 s1 ∧ s1 .altitude = y := by
  refine ⟨_, fun _ => y, fun _ => y, fun v => if v = .time ∨ v = .aoa then 0 else y, fun v => if v = .time then 1 else if v = .aoa then 0 else y, rfl, ?_, by simp⟩
  constructor
  · simp
  · norm_num [declared, setAll, opt, Dict.get?]
  · simp [massState]
  · simp [massState]
  · simp [massState, hy]
  · simp [massState]
  · simp
  · simp only [List.mem_cons, List.not_mem_nil, or_false]
    rintro c (rfl | rfl | rfl) hc
    · cases hc
    · cases hc
    · have : Var.aoa ≠ Var.time := by decide
      norm_num [this]
  · simp

/-- With angles of attack joined at the touchdown the flare has to end in the bounds of both phases. -/
theorem touchdown_aoa {u w : List (String × ℚ)} {av : Option Av} {p q : Phase} (hp : build .flare u av = .ok p) (hq : build .touchdown w av = .ok q)
    {g0 g1 s0 s1 g2 g3 s2 s3 : Var → ℝ} (h1 : Solves p g0 g1 s0 s1) (h2 : Solves q g2 g3 s2 s3) (hl : s1 .aoa = s2 .aoa) :
    0 ≤ s1 .aoa ∧ s1 .aoa ≤ (value .touchdown w "max_angle_of_attack" : ℚ) ∧
      (value .flare u "lower_angle_of_attack" : ℚ) ≤ s1 .aoa ∧ s1 .aoa ≤ (value .flare u "upper_angle_of_attack" : ℚ) ∧ s3 .aoa = g3 .aoa := by
  have e1 := (build_spec hp).2.2.2.2.2.2.2.1
  have e2 := (build_spec hq).2.2.2.2.2.2.2.1
  dsimp only at e1 e2
  have m1 := List.mem_filter.mp (e1 ▸ List.mem_singleton.mpr rfl :
    (⟨.aoa, true, true, false, false, some (value .flare u "lower_angle_of_attack"), some (value .flare u "upper_angle_of_attack")⟩ : Control) ∈
      p.controls.filter fun c => c.var = .aoa)
  have m2 := List.mem_filter.mp (e2 ▸ List.mem_singleton.mpr rfl :
    (⟨.aoa, true, true, false, true, some 0, some (value .touchdown w "max_angle_of_attack")⟩ : Control) ∈
      q.controls.filter fun c => c.var = .aoa)
  obtain ⟨-, -, a1, a2⟩ := h1.aoa _ m1.1 rfl
  obtain ⟨-, b0, b1, b2⟩ := h2.aoa _ m2.1 rfl
  have c1 := (a1 _ rfl).2
  have c2 := (a2 _ rfl).2
  have c3 := (b1 _ rfl).1
  have c4 := (b2 _ rfl).1
  rw [hl] at *
  exact ⟨by simpa using c3, c4, c1, c2, b0 rfl⟩

/-! ### The whole landing -/

/-- Six builders in their places. -/
def landing (n : LKind → String) : Landing := ⟨some ⟨n .approach, .other⟩, some ⟨n .micP3, .other⟩, some ⟨n .obstacle, .other⟩,
  some ⟨n .flare, .other⟩, some ⟨n .touchdown, .other⟩, some ⟨n .stop, .other⟩⟩

/-- The four without the approach. -/
def short (n : LKind → String) : Landing := { landing n with approach := none }

/-- The beginning of a phase in a variable is fixed, asked for, or linked to the end of a phase before. -/
def Anchored (b : Built) (name : String) (p : Phase) (v : Var) : Prop :=
  (v = .time ∧ p.fixTime = true) ∨ (∃ s ∈ p.states, s.var = v ∧ s.fixI = true) ∨ (v = .altitude ∧ p.initialAltitude.isSome) ∨
    ∃ l ∈ b.links, l.b = name ∧ v ∈ l.vars

theorem vars_of {k : LKind} {u : List (String × ℚ)} {av : Option Av} {p : Phase} (h : build k u av = .ok p) {v : Var}
    (hv : ∃ s ∈ p.states, s.var = v) : v ∈ (shape k).map Prod.fst := by
  obtain ⟨s, hs, rfl⟩ := hv
  rw [← (build_spec h).2.2.1, List.map_map]
  exact List.mem_map.mpr ⟨s, hs, rfl⟩

/-- Time and every state of every phase but the first are anchored. -/
theorem anchored_full (n : LKind → String) (b : Built) (hb : (landing n).build = .ok b) (k : LKind) (hk : k ≠ .approach)
    (u : List (String × ℚ)) (av : Option Av) (p : Phase) (h : build k u av = .ok p) (v : Var) (hv : v = .time ∨ ∃ s ∈ p.states, s.var = v) :
    Anchored b (n k) p v := by
  have hl : b.links = [⟨n .micP3, n .obstacle, obstacleVars⟩, ⟨n .approach, n .micP3, obstacleVars ++ [.distance, .velocity]⟩,
      ⟨n .obstacle, n .flare, extVars ++ [.altitude]⟩, ⟨n .flare, n .touchdown, extVars⟩, ⟨n .touchdown, n .stop, basicVars⟩] :=
    (congrArg Built.links (Except.ok.inj hb)).symm
  have hv' : v = .time ∨ v ∈ (shape k).map Prod.fst := hv.imp id (vars_of h)
  unfold Anchored
  rw [hl]
  cases k with
  | approach => exact absurd rfl hk
  | micP3 =>
    refine .inr (.inr (.inr ⟨_, List.mem_cons_of_mem _ (List.mem_cons_self), rfl, ?_⟩))
    simp only [shape, List.map_cons, List.map_nil, List.mem_cons, List.not_mem_nil, or_false] at hv'
    rcases hv' with rfl | rfl | rfl | rfl | rfl <;> (dsimp only; decide)
  | obstacle =>
    simp only [shape, List.map_cons, List.map_nil, List.mem_cons, List.not_mem_nil, or_false] at hv'
    have f : ∀ v, v ∈ obstacleVars → ∃ l ∈ [⟨n .micP3, n .obstacle, obstacleVars⟩, ⟨n .approach, n .micP3, obstacleVars ++ [.distance, .velocity]⟩,
      ⟨n .obstacle, n .flare, extVars ++ [.altitude]⟩, ⟨n .flare, n .touchdown, extVars⟩, (⟨n .touchdown, n .stop, basicVars⟩ : Link)],
        l.b = n .obstacle ∧ v ∈ l.vars := fun v hv => ⟨_, List.mem_cons_self, rfl, hv⟩
    rcases hv' with rfl | rfl | rfl | rfl | rfl
    · exact .inr (.inr (.inr (f _ (by decide))))
    · obtain ⟨s, hm, hv, hi, -⟩ := state_of_shape h (v := .distance) (i := true) (f := false) (l := some 0) (m := none) (by simp [shape])
      exact .inr (.inl ⟨s, hm, hv, hi⟩)
    · exact .inr (.inr (.inr (f _ (by decide))))
    · obtain ⟨s, hm, hv, hi, -⟩ := state_of_shape h (v := .velocity) (i := true) (f := false) (l := some 0) (m := none) (by simp [shape])
      exact .inr (.inl ⟨s, hm, hv, hi⟩)
    · exact .inr (.inr (.inr (f _ (by decide))))
  | flare =>
    refine .inr (.inr (.inr ⟨⟨n .obstacle, n .flare, extVars ++ [.altitude]⟩, by simp, rfl, ?_⟩))
    simp only [shape, List.map_cons, List.map_nil, List.mem_cons, List.not_mem_nil, or_false] at hv'
    rcases hv' with rfl | rfl | rfl | rfl | rfl <;> (dsimp only; decide)
  | touchdown =>
    refine .inr (.inr (.inr ⟨⟨n .flare, n .touchdown, extVars⟩, by simp, rfl, ?_⟩))
    simp only [shape, List.map_cons, List.map_nil, List.mem_cons, List.not_mem_nil, or_false] at hv'
    rcases hv' with rfl | rfl | rfl | rfl <;> (dsimp only; decide)
  | stop =>
    refine .inr (.inr (.inr ⟨⟨n .touchdown, n .stop, basicVars⟩, by simp, rfl, ?_⟩))
    simp only [shape, List.map_cons, List.map_nil, List.mem_cons, List.not_mem_nil, or_false] at hv'
    rcases hv' with rfl | rfl | rfl | rfl <;> (dsimp only; decide)

/-- Without the approach nothing anchors the mass: the landing mass is free to be optimized. -/
theorem short_mass_violated (n : LKind → String) (hn : ∀ i j, n i = n j → i = j) (b : Built) (hb : (short n).build = .ok b)
    (u : List (String × ℚ)) (av : Option Av) (p : Phase) (h : build .obstacle u av = .ok p) : ¬ Anchored b (n .obstacle) p .mass := by
  have hl : b.links = [⟨n .obstacle, n .flare, extVars ++ [.altitude]⟩, ⟨n .flare, n .touchdown, extVars⟩, ⟨n .touchdown, n .stop, basicVars⟩] :=
    (congrArg Built.links (Except.ok.inj hb)).symm
  rintro (⟨h1, -⟩ | ⟨s, hs, h1, h2⟩ | ⟨h1, -⟩ | ⟨l, hm, h1, -⟩)
  · cases h1
  · have : (s.var, s.fixI, s.fixF, s.lower, s.upper) ∈ shape .obstacle := by
      rw [← (build_spec h).2.2.1]
      exact List.mem_map.mpr ⟨s, hs, rfl⟩
    rw [h1, h2] at this
    simp [shape] at this
  · cases h1
  · rw [hl] at hm
    simp only [List.mem_cons, List.not_mem_nil, or_false] at hm
    rcases hm with rfl | rfl | rfl
    · exact absurd (hn _ _ h1) (by decide)
    · exact absurd (hn _ _ h1) (by decide)
    · exact absurd (hn _ _ h1) (by decide)

/-- The time of a landing is at least one second per phase and at most the sum of the longest durations. -/
theorem landing_time (n : LKind → String) (b : Built) (hb : (landing n).build = .ok b) (u : LKind → List (String × ℚ)) (av : Option Av)
    (p : LKind → Phase) (h : ∀ k, build k (u k) av = .ok (p k)) (g s : String → Bool → Var → ℝ)
    (hs : ∀ k, Solves (p k) (g (n k) false) (g (n k) true) (s (n k) false) (s (n k) true))
    (hl : ∀ l ∈ b.links, ∀ v ∈ l.vars, s l.a true v = s l.b false v) :
    6 ≤ s (n .stop) true .time - s (n .approach) false .time ∧
    s (n .stop) true .time - s (n .approach) false .time ≤
      (([.approach, .micP3, .obstacle, .flare, .touchdown, .stop] : List LKind).map fun k => ((value k (u k) "max_duration" : ℚ) : ℝ)).sum := by
  have e : b.links = [⟨n .micP3, n .obstacle, obstacleVars⟩, ⟨n .approach, n .micP3, obstacleVars ++ [.distance, .velocity]⟩,
      ⟨n .obstacle, n .flare, extVars ++ [.altitude]⟩, ⟨n .flare, n .touchdown, extVars⟩, ⟨n .touchdown, n .stop, basicVars⟩] :=
    (congrArg Built.links (Except.ok.inj hb)).symm
  rw [e] at hl
  have l1 := hl ⟨n .approach, n .micP3, obstacleVars ++ [.distance, .velocity]⟩ (by simp) .time (by dsimp only; decide)
  have l2 := hl ⟨n .micP3, n .obstacle, obstacleVars⟩ (by simp) .time (by dsimp only; decide)
  have l3 := hl ⟨n .obstacle, n .flare, extVars ++ [.altitude]⟩ (by simp) .time (by dsimp only; decide)
  have l4 := hl ⟨n .flare, n .touchdown, extVars⟩ (by simp) .time (by dsimp only; decide)
  have l5 := hl ⟨n .touchdown, n .stop, basicVars⟩ (by simp) .time (by dsimp only; decide)
  dsimp only at l1 l2 l3 l4 l5
  have d : ∀ k, 1 ≤ s (n k) true .time - s (n k) false .time ∧ s (n k) true .time - s (n k) false .time ≤ ((value k (u k) "max_duration" : ℚ) : ℝ) := by
    intro k
    have := (hs k).duration
    rwa [(build_spec (h k)).2.1] at this
  obtain ⟨a1, a2⟩ := d .approach
  obtain ⟨b1, b2⟩ := d .micP3
  obtain ⟨c1, c2⟩ := d .obstacle
  obtain ⟨d1, d2⟩ := d .flare
  obtain ⟨e1, e2⟩ := d .touchdown
  obtain ⟨f1, f2⟩ := d .stop
  simp only [List.map_cons, List.map_nil, List.sum_cons, List.sum_nil]
  constructor <;> linarith

/-- The microphone phase begins where its own option says and ends at the height of the obstacle, both above the airport. -/
theorem mic_altitudes (n : LKind → String) (b : Built) (hb : (landing n).build = .ok b) (u : LKind → List (String × ℚ)) (a : Av) (x y : ℚ)
    (hx : a.airport = some x) (hy : a.obstacle = some (some y))
    (p : LKind → Phase) (h : ∀ k, build k (u k) (some a) = .ok (p k)) (g s : String → Bool → Var → ℝ)
    (hs : ∀ k, Solves (p k) (g (n k) false) (g (n k) true) (s (n k) false) (s (n k) true))
    (hl : ∀ l ∈ b.links, ∀ v ∈ l.vars, s l.a true v = s l.b false v) :
    s (n .approach) false .altitude = (value .approach (u .approach) "initial_height" + x : ℚ) ∧
    s (n .approach) true .altitude = (value .micP3 (u .micP3) "initial_height" + x : ℚ) ∧
    s (n .micP3) true .altitude = (y + x : ℚ) ∧ 0 ≤ y + x := by
  have e : b.links = [⟨n .micP3, n .obstacle, obstacleVars⟩, ⟨n .approach, n .micP3, obstacleVars ++ [.distance, .velocity]⟩,
      ⟨n .obstacle, n .flare, extVars ++ [.altitude]⟩, ⟨n .flare, n .touchdown, extVars⟩, ⟨n .touchdown, n .stop, basicVars⟩] :=
    (congrArg Built.links (Except.ok.inj hb)).symm
  rw [e] at hl
  have l1 := hl ⟨n .approach, n .micP3, obstacleVars ++ [.distance, .velocity]⟩ (by simp) .altitude (by dsimp only; decide)
  have l2 := hl ⟨n .micP3, n .obstacle, obstacleVars⟩ (by simp) .altitude (by dsimp only; decide)
  dsimp only at l1 l2
  have i1 : (p .approach).initialAltitude = some (value .approach (u .approach) "initial_height" + x) := by
    rw [(build_spec (h .approach)).2.2.2.2.1]
    simp [height, hx]
  have i2 : (p .micP3).initialAltitude = some (value .micP3 (u .micP3) "initial_height" + x) := by
    rw [(build_spec (h .micP3)).2.2.2.2.1]
    simp [height, hx]
  have i3 : (p .obstacle).initialAltitude = some (y + x) := by
    rw [(build_spec (h .obstacle)).2.2.2.2.1]
    simp [height, hx, hy]
  have j3 := (hs .obstacle).altitude _ i3
  refine ⟨(hs .approach).altitude _ i1, ?_, ?_, ?_⟩
  · rw [l1]
    exact (hs .micP3).altitude _ i2
  · rw [l2]
    exact j3
  · obtain ⟨t, hm, hv, -, -, hlow, -⟩ := state_of_shape (h .obstacle) (v := .altitude) (i := false) (f := false) (l := some 0) (m := none) (by simp [shape])
    have := ((hs .obstacle).lower t hm 0 (by rw [hlow]; rfl)).1
    rw [hv, j3] at this
    exact_mod_cast this


end Verif.LandingPhases
