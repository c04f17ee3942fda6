import Verif.Model.ControlIter
import Verif.Props.OdeOptions

/-!
# The group that solves for the angle of attack and the thrust: what its subsystems are told
-/

namespace Verif.ControlIter
open Verif.Builders Verif.OdeOpts

theorem putE_lookup (d : EDict) (k : String) (v : Entry) (j : String) :
    (putE d k v).lookup j = if j = k then some v else d.lookup j := by
  induction d with
  | nil =>
    by_cases h : j = k
    · simp [putE, h]
    · have : (j == k) = false := by simpa using h
      simp [putE, List.lookup, h, this]
  | cons p d ih =>
    obtain ⟨a, b⟩ := p
    by_cases ha : a = k
    · subst ha
      by_cases h : j = a
      · subst h; simp [putE]
      · have : (j == a) = false := by simpa using h
        simp [putE, List.lookup, h, this]
    · simp only [putE, ha, if_false]
      by_cases h : j = a
      · subst h; simp [List.lookup, ha]
      · have : (j == a) = false := by simpa using h
        simp [List.lookup, this, ih]

/-- After the set-up the user's dictionary has an entry `'method'`; every other entry is as before. -/
theorem after_lookup (c : Bool) (d : EDict) (j : String) :
    (after c d).lookup j = if j = "method" then some (.str (if c then "low_speed" else "cruise")) else d.lookup j :=
  putE_lookup d "method" _ j

/-- Of two groups set up with one dictionary the second decides what is left in it. -/
theorem after_twice (c c' : Bool) (d : EDict) : after c' (after c d) = after c' d := by
  unfold after
  induction d with
  | nil => simp [putE]
  | cons p d ih =>
    obtain ⟨a, b⟩ := p
    by_cases ha : a = "method"
    · simp [putE, ha]
    · simp [putE, ha, ih]

/-- The entries a user may give: options by name of subsystem. -/
def emb (d : Dict) : EDict := d.map (fun p => (p.1, .opts p.2))

theorem emb_lookup (d : Dict) (j : String) : (emb d).lookup j = (d.lookup j).map .opts := by
  induction d with
  | nil => rfl
  | cons p d ih =>
    obtain ⟨a, b⟩ := p
    have ih' : List.lookup j (emb d) = (d.lookup j).map .opts := ih
    by_cases h : j = a
    · subst h; simp [emb]
    · have : (j == a) = false := by simpa using h
      simpa [emb, List.lookup, this] using ih'

/-- One pass for a subsystem of another name than `method`. -/
theorem pass_eq (c : Bool) (d : Dict) (kw : Opts) (b : Sub) (hb : b.name ≠ "method") :
    pass (after c (emb d)) kw b.name = .ok (((d.lookup b.name).toList).foldl update kw) := by
  rw [pass, after_lookup, if_neg hb, emb_lookup]
  cases d.lookup b.name <;> rfl

/-- The options given, as a list. -/
def expected (d : Dict) : Opts → List Sub → List Opts
  | _, [] => []
  | kw, b :: bs => ((d.lookup b.name).toList).foldl update kw :: expected d (((d.lookup b.name).toList).foldl update kw) bs

theorem loop_eq (c : Bool) (d : Dict) (bs : List Sub) : ∀ kw : Opts, (∀ b ∈ bs, b.name ≠ "method") →
    loop (after c (emb d)) kw bs = .ok (expected d kw bs) := by
  induction bs with
  | nil => intro kw _; rfl
  | cons b bs ih =>
    intro kw h
    have h1 := pass_eq c d kw b (h b List.mem_cons_self)
    have h2 := ih (((d.lookup b.name).toList).foldl update kw) (fun b' hb' => h b' (List.mem_cons_of_mem _ hb'))
    simp only [loop]
    rw [h1]
    simp only [h2, expected]

theorem expected_get (d : Dict) (bs : List Sub) : ∀ (kw : Opts) (i : ℕ), i < bs.length →
    (expected d kw bs)[i]? = some (((bs.take (i + 1)).filterMap (fun b => d.lookup b.name)).foldl update kw) := by
  induction bs with
  | nil => intro kw i hi; simp at hi
  | cons b bs ih =>
    intro kw i hi
    have h3 : ((b :: bs).take (i + 1)).filterMap (fun b => d.lookup b.name) =
        (d.lookup b.name).toList ++ (bs.take i).filterMap (fun b => d.lookup b.name) := by
      rw [List.take_succ_cons, List.filterMap_cons]
      cases d.lookup b.name <;> rfl
    rw [h3, List.foldl_append]
    cases i with
    | zero => simp [expected]
    | succ i =>
      simp only [List.length_cons, Nat.add_lt_add_iff_right] at hi
      simpa [expected] using ih (((d.lookup b.name).toList).foldl update kw) i hi

theorem expected_length (d : Dict) (bs : List Sub) : ∀ kw : Opts, (expected d kw bs).length = bs.length := by
  induction bs with
  | nil => intro kw; rfl
  | cons b bs ih => intro kw; simp [expected, ih]

/-- The set-up reaches the end of its loop exactly when no subsystem is called `method`. -/
theorem given_ok_iff (c : Bool) (d : Dict) (bs : List Sub) :
    (∃ r, given c (emb d) bs = .ok r) ↔ ∀ b ∈ bs, b.name ≠ "method" := by
  constructor
  · rintro ⟨r, h⟩ b hb hn
    have main : ∀ (bs : List Sub) (kw : Opts) (r : List Opts), b ∈ bs → loop (after c (emb d)) kw bs ≠ .ok r := by
      intro bs
      induction bs with
      | nil => intro kw r hb; simp at hb
      | cons b' bs ih =>
        intro kw r hb h
        by_cases hb' : b'.name = "method"
        · have : pass (after c (emb d)) kw b'.name = .error .value := by
            rw [pass, after_lookup, if_pos hb']
            cases c <;> rfl
          simp only [loop] at h
          rw [this] at h
          simp at h
        · have hmem : b ∈ bs := by
            rcases List.mem_cons.1 hb with rfl | h'
            · exact absurd hn hb'
            · exact h'
          simp only [loop] at h
          rw [pass_eq c d kw b' hb'] at h
          cases hl : loop (after c (emb d)) (((d.lookup b'.name).toList).foldl update kw) bs with
          | error e => simp only [hl] at h; exact absurd h (by simp)
          | ok r' => exact ih _ r' hmem hl
    exact main bs noOpts r hb h
  · intro h
    exact ⟨_, loop_eq c d bs noOpts h⟩

/-- A subsystem called `method` ends the set-up with an exception, whatever the user gave. -/
theorem method_name_violated (c : Bool) (d : Dict) : ∃ bs : List Sub, given c (emb d) bs = .error .value := by
  refine ⟨[⟨"method", .other⟩], ?_⟩
  have : pass (after c (emb d)) noOpts "method" = .error .value := by
    rw [pass, after_lookup, if_pos rfl]
    cases c <;> rfl
  simp only [given, loop]
  rw [this]

/-- The options of the `i`-th subsystem are the entries of all subsystems up to it, one over the other; none of the group. -/
theorem given_get (c : Bool) (d : Dict) (bs : List Sub) (h : ∀ b ∈ bs, b.name ≠ "method") :
    ∃ r, given c (emb d) bs = .ok r ∧ r.length = bs.length ∧ ∀ i < bs.length,
      r[i]? = some (((bs.take (i + 1)).filterMap (fun b => d.lookup b.name)).foldl update noOpts) :=
  ⟨_, loop_eq c d bs noOpts h, expected_length d bs noOpts, fun i hi => expected_get d bs noOpts i hi⟩

/-- `clean` changes nothing for any subsystem. -/
theorem clean_ignored_violated (d : Dict) (bs : List Sub) (h : ∀ b ∈ bs, b.name ≠ "method") :
    given true (emb d) bs = given false (emb d) bs := by
  unfold given
  rw [loop_eq true d bs noOpts h, loop_eq false d bs noOpts h]

/-- Unless the user names a method, no subsystem is told one. -/
theorem method_lost_violated (c : Bool) (d : Dict) (bs : List Sub) (h : ∀ b ∈ bs, b.name ≠ "method")
    (hm : ∀ b ∈ bs, ∀ e, d.lookup b.name = some e → e.method = none) :
    ∃ r, given c (emb d) bs = .ok r ∧ ∀ o ∈ r, o.method = none := by
  obtain ⟨r, h1, h2, h3⟩ := given_get c d bs h
  refine ⟨r, h1, ?_⟩
  intro o ho
  obtain ⟨i, hi, rfl⟩ := List.getElem_of_mem ho
  have h4 := h3 i (h2 ▸ hi)
  rw [List.getElem?_eq_getElem hi] at h4
  rw [Option.some.inj h4]
  have hl : ∀ e ∈ (bs.take (i + 1)).filterMap (fun b => d.lookup b.name), e.method = none := by
    intro e he
    obtain ⟨b, hb, he'⟩ := List.mem_filterMap.1 he
    exact hm b (List.mem_of_mem_take hb) e he'
  have main : ∀ (l : List Opts) (a : Opts), a.method = none → (∀ e ∈ l, e.method = none) → (l.foldl update a).method = none := by
    intro l
    induction l with
    | nil => intro a ha _; exact ha
    | cons e l ih =>
      intro a ha hl
      refine ih _ ?_ (fun e' he' => hl e' (List.mem_cons_of_mem _ he'))
      rw [update_method, hl e List.mem_cons_self, ha]; rfl
  exact main _ noOpts rfl hl

/-- So GASP aerodynamics is always the one of the cruise, with flaps and gear or without, and no option reaches it. -/
theorem always_cruise_violated (o : Opts) (hm : o.method = none) (hs : solveAlpha o = false) :
    buildMission .gasp o = buildMission .gasp ⟨some "cruise", []⟩ := by
  unfold buildMission
  have h1 : buildGasp o = buildGasp ⟨some "cruise", []⟩ := by
    unfold buildGasp
    simp only [hm, hs]
    rfl
  simp [hm, h1]

/-- The method that would be told is the opposite of the one the solved flight ODE tells for the same flag. -/
theorem reversed_violated (c : Bool) : (Ode.unsteady c).base.method ≠ some (written c) ∧
    (Ode.unsteady (!c)).base.method = some (written c) := by
  cases c <;> decide

/-- With options for aerodynamics only, among them the method of the flag, each subsystem up to it is told what the solved ODE tells. -/
theorem given_partial (c : Bool) (d : Dict) (bs : List Sub) (i : ℕ) (b : Sub) (hb : bs[i]? = some b)
    (h : ∀ b ∈ bs, b.name ≠ "method") (ho : ∀ b' ∈ bs.take i, d.lookup b'.name = none) (e : Opts) (he : d.lookup b.name = some e)
    (hm : e.method = (Ode.unsteady c).base.method) :
    ∃ r o, given c (emb d) bs = .ok r ∧ r[i]? = some o ∧ o.method = (Ode.unsteady c).base.method ∧
      ((Ode.unsteady c).setup d bs).1[i]? = some (some o) := by
  obtain ⟨r, h1, -, h3⟩ := given_get c d bs h
  have hi : i < bs.length := by
    rcases Nat.lt_or_ge i bs.length with hi | hi
    · exact hi
    · rw [List.getElem?_eq_none hi] at hb; simp at hb
  have hfold : ((bs.take (i + 1)).filterMap (fun b => d.lookup b.name)) = [e] := by
    rw [List.take_add_one, hb, List.filterMap_append, List.filterMap_eq_nil_iff.2 ho]
    simp [he]
  have h4 := h3 i hi
  rw [hfold] at h4
  have hme : (update noOpts e).method = (Ode.unsteady c).base.method := by
    rw [update_method, hm]; cases c <;> rfl
  refine ⟨r, update noOpts e, h1, h4, hme, ?_⟩
  rw [carry_setup _ (.inr ⟨c, rfl⟩) d bs i hi, hfold]
  simp only [List.foldl_cons, List.foldl_nil, update]
  cases c <;> simp_all [Ode.base, noOpts]

/-- Options of propulsion reach aerodynamics after it. -/
theorem leak_violated : ∃ (d : Dict) (bs : List Sub) (r : List Opts) (o : Opts), given false (emb d) bs = .ok r ∧
    bs[1]? = some ⟨"aerodynamics", .aero .gasp⟩ ∧ d.lookup "aerodynamics" = some ⟨some "low_speed", []⟩ ∧ r[1]? = some o ∧
    "interpolate" ∈ o.keys ∧ ¬ ∃ g, buildMission .gasp o = .ok g := by
  refine ⟨[("propulsion", ⟨none, [("interpolate", .flag true)]⟩), ("aerodynamics", ⟨some "low_speed", []⟩)],
    [⟨"propulsion", .prop⟩, ⟨"aerodynamics", .aero .gasp⟩], _, ⟨some "low_speed", [("interpolate", .flag true)]⟩, rfl, rfl, by decide,
    by decide, by decide, ?_⟩
  rintro ⟨g, hg⟩
  have : buildMission .gasp ⟨some "low_speed", [("interpolate", .flag true)]⟩ = .error .key := by decide
  rw [this] at hg
  simp at hg

/-- The case of the test: one aerodynamics builder, no options. -/
example : ∃ r, given true (emb []) [⟨"aerodynamics", .aero .gasp⟩] = .ok r ∧ ∀ o ∈ r, o.method = none :=
  method_lost_violated true [] _ (by decide) (by intro b _ e he; simp [List.lookup] at he)

example : solveAlpha noOpts = false := by decide

example : ∃ r o, given true (emb [("aerodynamics", ⟨some "cruise", []⟩)]) [⟨"aerodynamics", .aero .gasp⟩] = .ok r ∧ r[0]? = some o ∧
    o.method = (Ode.unsteady true).base.method ∧
    ((Ode.unsteady true).setup [("aerodynamics", ⟨some "cruise", []⟩)] [⟨"aerodynamics", .aero .gasp⟩]).1[0]? = some (some o) :=
  given_partial true _ _ 0 _ rfl (by decide) (by simp) ⟨some "cruise", []⟩ rfl (by decide)

end Verif.ControlIter
