import Verif.Model.OdeOptions
import Verif.Props.Builders
import Mathlib.Data.List.Nodup
import Mathlib.Tactic.Tauto

/-!
# Theorems about the options the two degree of freedom ODEs give to their subsystems
-/

namespace Verif.OdeOpts
open Verif.Builders

/-! ## C115 -/

/-! ### Dictionaries -/

theorem put_lookup (r : List (String × Val)) (k : String) (v : Val) (j : String) :
    (put r k v).lookup j = if j = k then some v else r.lookup j := by
  induction r with
  | nil =>
    by_cases h : j = k
    · subst h; simp [put]
    · simp [put, List.lookup, h, beq_eq_false_iff_ne.2 h]
  | cons p r ih =>
    obtain ⟨a, b⟩ := p
    by_cases ha : a = k
    · subst ha
      by_cases h : j = a
      · subst h; simp [put]
      · simp [put, List.lookup, h, beq_eq_false_iff_ne.2 h]
    · by_cases h : j = a
      · subst h; simp [put, ha]
      · simp only [put, ha, if_false, List.lookup, beq_eq_false_iff_ne.2 h, ih]

theorem put_keys (r : List (String × Val)) (k : String) (v : Val) (j : String) :
    j ∈ (put r k v).map (·.1) ↔ j = k ∨ j ∈ r.map (·.1) := by
  induction r with
  | nil => simp [put]
  | cons p r ih =>
    obtain ⟨a, b⟩ := p
    by_cases ha : a = k
    · subst ha; simp [put]
    · simp only [put, ha, if_false, List.map_cons, List.mem_cons, ih]
      constructor <;> rintro (h | h | h) <;> simp [h]

theorem lookup_none_of_not_mem (s : List (String × Val)) (k : String) (h : k ∉ s.map (·.1)) : s.lookup k = none := by
  induction s with
  | nil => rfl
  | cons p s ih =>
    obtain ⟨a, b⟩ := p
    simp only [List.map_cons, List.mem_cons, not_or] at h
    simp only [List.lookup, beq_eq_false_iff_ne.2 h.1]
    exact ih h.2

theorem merge_lookup (s : List (String × Val)) : ∀ r : List (String × Val), (s.map (·.1)).Nodup → ∀ k,
    (merge r s).lookup k = (s.lookup k).or (r.lookup k) := by
  induction s with
  | nil => intro r _ k; simp [merge]
  | cons p s ih =>
    intro r hn k
    obtain ⟨a, b⟩ := p
    simp only [List.map_cons, List.nodup_cons] at hn
    have := ih (put r a b) hn.2 k
    simp only [merge, List.foldl_cons] at this ⊢
    rw [this, put_lookup]
    by_cases h : k = a
    · subst h
      simp [lookup_none_of_not_mem s k hn.1]
    · simp only [List.lookup, beq_eq_false_iff_ne.2 h, h, if_false]

theorem merge_keys (s : List (String × Val)) : ∀ (r : List (String × Val)) (k : String),
    k ∈ (merge r s).map (·.1) ↔ k ∈ r.map (·.1) ∨ k ∈ s.map (·.1) := by
  induction s with
  | nil => intro r k; simp [merge]
  | cons p s ih =>
    intro r k
    obtain ⟨a, b⟩ := p
    have := ih (put r a b) k
    simp only [merge, List.foldl_cons] at this ⊢
    rw [this, put_keys]
    simp only [List.map_cons, List.mem_cons]
    constructor
    · rintro ((h | h) | h) <;> simp [h]
    · rintro (h | h | h) <;> simp [h]

/-- The second dictionary wins, key by key. -/
theorem update_get (a b : Opts) (h : b.keys.Nodup) (k : String) : (update a b).get k = (b.get k).or (a.get k) :=
  merge_lookup b.rest a.rest h k

theorem update_method (a b : Opts) : (update a b).method = b.method.or a.method := rfl

theorem update_keys (a b : Opts) (k : String) : k ∈ (update a b).keys ↔ k ∈ a.keys ∨ k ∈ b.keys := merge_keys b.rest a.rest k

/-! ### Takeoff: the user wins -/

/-- What the takeoff ODE gives to one subsystem. -/
def takeoffOpts (o : Ode) (d : Dict) (b : Sub) : Opts :=
  match d.lookup b.name with
  | some e => update (if b.isAero then o.base else noOpts) e
  | none => if b.isAero then o.base else noOpts

/-- The takeoff ODE gives each subsystem options of its own and leaves the user's dictionary alone. -/
theorem takeoff_setup (c g r : Bool) (d : Dict) (bs : List Sub) :
    (Ode.takeoff c g r).setup d bs = (bs.map (fun b => some (takeoffOpts (.takeoff c g r) d b)), d) := by
  have : ∀ bs s, s.user = d → (Ode.takeoff c g r).loop s bs = (bs.map (fun b => some (takeoffOpts (.takeoff c g r) d b)), s) := by
    intro bs
    induction bs with
    | nil => intro s _; rfl
    | cons b bs ih =>
      intro s hs
      have h1 : (Ode.takeoff c g r).step s b = (some (takeoffOpts (.takeoff c g r) d b), s) := by
        simp only [Ode.step, takeoffOpts, hs]
        cases d.lookup b.name <;> rfl
      simp only [Ode.loop, h1, ih s hs, List.map_cons]
  have h := this bs ⟨d, (Ode.takeoff c g r).base⟩ rfl
  simp only [Ode.setup, Ode.start, h]

/-- Every option the user gives reaches the subsystem; the others are the ODE's. -/
theorem takeoff_user_wins (c g r : Bool) (d : Dict) (b : Sub) (e : Opts) (h : d.lookup b.name = some e) (hn : e.keys.Nodup) :
    (∀ k, (takeoffOpts (.takeoff c g r) d b).get k =
      (e.get k).or (if b.isAero then (Ode.takeoff c g r).base.get k else none)) ∧
    (takeoffOpts (.takeoff c g r) d b).method = e.method.or (if b.isAero then (Ode.takeoff c g r).base.method else none) := by
  simp only [takeoffOpts, h]
  refine ⟨fun k => ?_, ?_⟩
  · rw [update_get _ _ hn]
    cases b.isAero <;> rfl
  · rw [update_method]
    cases b.isAero <;> rfl

example : takeoffOpts (.takeoff false false false) [("aerodynamics", ⟨none, [("retract_gear", .flag false)]⟩)]
    ⟨"aerodynamics", .aero .gasp⟩ = ⟨some "low_speed", [("retract_gear", .flag false), ("retract_flaps", .flag true)]⟩ := by decide

/-! ### Climb, cruise and descent: the ODE wins -/

/-- The ODEs that update the user's dictionary with their own options. -/
def Overrides (o : Ode) : Prop := o = .flight ∨ o = .breguet ∨ o = .simpleCruise

/-- What these ODEs give to one subsystem. -/
def overOpts (o : Ode) (d : Dict) (b : Sub) : Opts :=
  if b.isAero then update ((d.lookup b.name).getD noOpts) o.base else (d.lookup b.name).getD noOpts

theorem setEntry_lookup (d : Dict) (n : String) (o : Opts) (j : String) :
    (setEntry d n o).lookup j = if j = n then (d.lookup n).map (fun _ => o) else d.lookup j := by
  induction d with
  | nil => simp [setEntry]
  | cons p d ih =>
    obtain ⟨a, b⟩ := p
    by_cases ha : a = n
    · subst ha
      by_cases h : j = a
      · subst h; simp [setEntry]
      · simp [setEntry, List.lookup, h, beq_eq_false_iff_ne.2 h]
    · by_cases h : j = a
      · subst h; simp [setEntry, ha]
      · have hn : ¬ n = a := fun e => ha e.symm
        simp only [setEntry, ha, if_false, List.lookup, beq_eq_false_iff_ne.2 h, beq_eq_false_iff_ne.2 hn, ih]

/-- One pass in closed form. -/
theorem over_step (o : Ode) (ho : Overrides o) (s : St) (b : Sub) :
    (o.step s b).1 = some (overOpts o s.user b) ∧
    ∀ j, (o.step s b).2.user.lookup j =
      if j = b.name ∧ b.isAero = true then (s.user.lookup j).map (fun e => update e o.base) else s.user.lookup j := by
  have key : o.step s b = match s.user.lookup b.name with
    | some e => if b.isAero then (some (update e o.base), ⟨setEntry s.user b.name (update e o.base), s.carry⟩) else (some e, s)
    | none => if b.isAero then (some (update noOpts o.base), s) else (some noOpts, s) := by
    rcases ho with rfl | rfl | rfl <;> rfl
  rw [key]
  unfold overOpts
  cases h : s.user.lookup b.name with
  | none =>
    cases hb : b.isAero
    · simp
    · refine ⟨by simp, fun j => ?_⟩
      by_cases hj : j = b.name
      · subst hj; simp [h]
      · simp [hj]
  | some e =>
    cases hb : b.isAero
    · simp
    · refine ⟨by simp, fun j => ?_⟩
      simp only [if_true, setEntry_lookup]
      by_cases hj : j = b.name
      · subst hj; simp [h]
      · simp [hj]

/-- Each subsystem's options depend on its own entry alone; afterwards the entry of an aerodynamics subsystem is changed. -/
theorem over_setup (o : Ode) (ho : Overrides o) (d : Dict) (bs : List Sub) (hn : (bs.map Sub.name).Nodup) :
    (o.setup d bs).1 = bs.map (fun b => some (overOpts o d b)) ∧
    ∀ j, (o.setup d bs).2.lookup j =
      if ∃ b ∈ bs, b.name = j ∧ b.isAero = true then (d.lookup j).map (fun e => update e o.base) else d.lookup j := by
  have main : ∀ (bs : List Sub) (s : St), (bs.map Sub.name).Nodup →
      (o.loop s bs).1 = bs.map (fun b => some (overOpts o s.user b)) ∧
      ∀ j, (o.loop s bs).2.user.lookup j =
        if ∃ b ∈ bs, b.name = j ∧ b.isAero = true then (s.user.lookup j).map (fun e => update e o.base) else s.user.lookup j := by
    intro bs
    induction bs with
    | nil => intro s _; simp [Ode.loop]
    | cons b bs ih =>
      intro s hn
      simp only [List.map_cons, List.nodup_cons] at hn
      obtain ⟨h1, h2⟩ := over_step o ho s b
      obtain ⟨i1, i2⟩ := ih (o.step s b).2 hn.2
      simp only [Ode.loop]
      refine ⟨?_, fun j => ?_⟩
      · rw [h1, i1, List.map_cons]
        congr 1
        refine List.map_congr_left fun b' hb' => ?_
        have hne : b'.name ≠ b.name := fun e => hn.1 (e ▸ List.mem_map.2 ⟨b', hb', rfl⟩)
        simp only [overOpts, h2, hne, false_and, if_false]
      · rw [i2, h2]
        by_cases hj : j = b.name
        · subst hj
          have hno : ¬ ∃ b' ∈ bs, b'.name = b.name ∧ b'.isAero = true :=
            fun ⟨b', hb', e, _⟩ => hn.1 (e ▸ List.mem_map.2 ⟨b', hb', rfl⟩)
          rw [if_neg hno]
          cases hb : b.isAero
          · have : ¬ ∃ b' ∈ b :: bs, b'.name = b.name ∧ b'.isAero = true := by
              rintro ⟨b', hb', e, ha⟩
              rcases List.mem_cons.1 hb' with rfl | hb'
              · rw [hb] at ha; simp at ha
              · exact hno ⟨b', hb', e, ha⟩
            rw [if_neg this, if_neg (by simp)]
          · have : ∃ b' ∈ b :: bs, b'.name = b.name ∧ b'.isAero = true := ⟨b, List.mem_cons_self, rfl, hb⟩
            rw [if_pos this, if_pos ⟨rfl, rfl⟩]
        · have e : (∃ b' ∈ b :: bs, b'.name = j ∧ b'.isAero = true) ↔ ∃ b' ∈ bs, b'.name = j ∧ b'.isAero = true := by
            constructor
            · rintro ⟨b', hb', h⟩
              rcases List.mem_cons.1 hb' with rfl | hb'
              · exact absurd h.1.symm hj
              · exact ⟨b', hb', h⟩
            · rintro ⟨b', hb', h⟩; exact ⟨b', List.mem_cons_of_mem _ hb', h⟩
          simp only [hj, false_and, if_false, e]
  have hs : o.start d = ⟨d, o.base⟩ := by rcases ho with rfl | rfl | rfl <;> rfl
  have := main bs ⟨d, o.base⟩ hn
  simp only [Ode.setup, hs]
  exact this

/-- The method is the ODE's, whatever the user asked for. -/
theorem over_method (o : Ode) (ho : Overrides o) (d : Dict) (b : Sub) (hb : b.isAero = true) :
    (overOpts o d b).method = some "cruise" := by
  simp only [overOpts, hb, if_true, update_method]
  rcases ho with rfl | rfl | rfl <;> rfl

theorem base_keys (o : Ode) (ho : Overrides o) : o.base.keys.Nodup := by
  rcases ho with rfl | rfl | rfl <;> decide

/-- The options the ODE does not set are the user's. -/
theorem over_other (o : Ode) (ho : Overrides o) (d : Dict) (b : Sub) (e : Opts) (h : d.lookup b.name = some e) (k : String)
    (hk : k ≠ "output_alpha") : (overOpts o d b).get k = e.get k := by
  unfold overOpts
  rw [h]
  cases b.isAero
  · rfl
  · simp only [if_true, Option.getD_some, update_get _ _ (base_keys o ho)]
    have : o.base.get k = none := by
      rcases ho with rfl | rfl | rfl
      · rfl
      · simp [Ode.base, Opts.get, List.lookup, beq_eq_false_iff_ne.2 hk]
      · simp [Ode.base, Opts.get, List.lookup, beq_eq_false_iff_ne.2 hk]
    rw [this, Option.none_or]

/-- So no phase of these kinds can use a table: with the data of the table the group cannot be built. -/
theorem over_table_violated (o : Ode) (ho : Overrides o) (d : Dict) (b : Sub) (hb : b.isAero = true) (e : Opts)
    (h : d.lookup b.name = some e) (hk : "aero_data" ∈ e.keys) : ¬ ∃ r, buildMission .gasp (overOpts o d b) = .ok r := by
  rw [build_ok_iff]
  have hm := over_method o ho d b hb
  rintro (h1 | h1 | ⟨m, k, h1, h2, -, h4⟩)
  · rw [hm] at h1; simp at h1
  · rw [hm] at h1; simp at h1
  · rw [hm] at h1
    obtain rfl : m = "cruise" := (Option.some.inj h1).symm
    have hk' : k = .cruise := by
      simp only [methodTable, List.mem_cons, Prod.mk.injEq, List.not_mem_nil, or_false] at h2
      rcases h2 with h2 | h2 | h2 | h2
      · exact h2.2
      all_goals exact absurd h2.1 (by decide)
    subst hk'
    have hp : "aero_data" ∈ passed .gasp (overOpts o d b) := by
      simp only [passed, List.mem_filter]
      refine ⟨?_, by decide⟩
      simp only [overOpts, hb, if_true, h, Option.getD_some, update_keys]
      exact Or.inl hk
    exact absurd (h4 _ hp) (by decide)

/-- The user's options alone would build. -/
example : (∃ r, buildMission .gasp ⟨some "tabular_cruise", [("aero_data", .text "t.txt")]⟩ = .ok r) ∧
    ¬ ∃ r, buildMission .gasp (overOpts .flight
      [("aerodynamics", ⟨some "tabular_cruise", [("aero_data", .text "t.txt")]⟩)] ⟨"aerodynamics", .aero .gasp⟩) = .ok r :=
  ⟨⟨_, rfl⟩, over_table_violated .flight (.inl rfl) _ _ rfl _ rfl (by decide)⟩

/-- External aerodynamics are replaced by the built-in ones. -/
theorem over_external_violated (o : Ode) (ho : Overrides o) :
    buildMission .gasp ⟨some "external", []⟩ = .ok none ∧
    ∃ g, buildMission .gasp (overOpts o [("aerodynamics", ⟨some "external", []⟩)] ⟨"aerodynamics", .aero .gasp⟩) = .ok (some g) := by
  refine ⟨rfl, ?_⟩
  rcases ho with rfl | rfl | rfl
  · exact ⟨⟨.cruise, [], none⟩, by decide⟩
  · exact ⟨⟨.cruise, ["output_alpha"], none⟩, by decide⟩
  · exact ⟨⟨.cruise, ["output_alpha"], none⟩, by decide⟩

/-- A second setup with the dictionary left by the first gives the same method and options. -/
theorem over_again (o : Ode) (ho : Overrides o) (d : Dict) (bs : List Sub) (hn : (bs.map Sub.name).Nodup) (b : Sub) (hb : b ∈ bs) :
    (overOpts o (o.setup d bs).2 b).method = (overOpts o d b).method ∧
    ∀ k, (overOpts o (o.setup d bs).2 b).get k = (overOpts o d b).get k := by
  obtain ⟨-, h2⟩ := over_setup o ho d bs hn
  cases ha : b.isAero
  · have hno : ¬ ∃ b' ∈ bs, b'.name = b.name ∧ b'.isAero = true := by
      rintro ⟨b', hb', e, h'⟩
      have := List.inj_on_of_nodup_map hn hb' hb e
      rw [this, ha] at h'; simp at h'
    simp only [overOpts, ha, Bool.false_eq_true, if_false, h2, hno]
    exact ⟨trivial, fun _ => trivial⟩
  · refine ⟨by rw [over_method o ho _ b ha, over_method o ho _ b ha], fun k => ?_⟩
    have hyes : ∃ b' ∈ bs, b'.name = b.name ∧ b'.isAero = true := ⟨b, hb, rfl, ha⟩
    simp only [overOpts, ha, if_true, h2, hyes]
    cases h : d.lookup b.name with
    | none => rfl
    | some e =>
      simp only [Option.map_some, Option.getD_some, update_get _ _ (base_keys o ho)]
      cases o.base.get k <;> rfl

/-- But another ODE set up with the same dictionary gets the method of this one instead of its own default. -/
theorem over_shared_violated : ∃ (d : Dict) (b : Sub), d.lookup b.name = some noOpts ∧
    (takeoffOpts (.takeoff false false false) d b).method = some "low_speed" ∧
    (takeoffOpts (.takeoff false false false) (Ode.flight.setup d [b]).2 b).method = some "cruise" :=
  ⟨[("aerodynamics", noOpts)], ⟨"aerodynamics", .aero .gasp⟩, by decide, by decide, by decide⟩

/-! ### Ground roll and solved flight: options pass from one subsystem to the next -/

/-- The ODEs whose dictionary is kept through the loop. -/
def Carries (o : Ode) : Prop := o = .groundroll ∨ ∃ c, o = .unsteady c

/-- The options of the `i`-th subsystem are those of the ODE updated by the entries of all subsystems up to it. -/
theorem carry_setup (o : Ode) (ho : Carries o) (d : Dict) (bs : List Sub) (i : ℕ) (hi : i < bs.length) :
    (o.setup d bs).1[i]? = some (some (((bs.take (i + 1)).filterMap (fun b => d.lookup b.name)).foldl update o.base)) := by
  have main : ∀ (bs : List Sub) (s : St) (i : ℕ), i < bs.length → (o.loop s bs).1[i]? =
      some (some (((bs.take (i + 1)).filterMap (fun b => s.user.lookup b.name)).foldl update s.carry)) := by
    intro bs
    induction bs with
    | nil => intro s i hi; simp at hi
    | cons b bs ih =>
      intro s i hi
      have hstep : ∃ kw, o.step s b = (some kw, ⟨s.user, kw⟩) ∧
          ((s.user.lookup b.name).toList).foldl update s.carry = kw := by
        rcases ho with rfl | ⟨c, rfl⟩ <;> refine ⟨_, rfl, ?_⟩ <;>
          cases s.user.lookup b.name <;> rfl
      obtain ⟨kw, h1, h2⟩ := hstep
      simp only [Ode.loop, h1]
      have h3 : ((b :: bs).take (i + 1)).filterMap (fun b => s.user.lookup b.name) =
          (s.user.lookup b.name).toList ++ (bs.take i).filterMap (fun b => s.user.lookup b.name) := by
        rw [List.take_succ_cons, List.filterMap_cons]
        cases s.user.lookup b.name <;> rfl
      rw [h3, List.foldl_append, h2]
      cases i with
      | zero => simp
      | succ i =>
        simp only [List.length_cons, Nat.add_lt_add_iff_right] at hi
        have := ih ⟨s.user, kw⟩ i hi
        simpa using this
  have hs : o.start d = ⟨d, o.base⟩ := by rcases ho with rfl | ⟨c, rfl⟩ <;> rfl
  simp only [Ode.setup, hs]
  exact main bs ⟨d, o.base⟩ i hi

theorem foldl_update_keys (l : List Opts) : ∀ (a : Opts) (k : String),
    k ∈ (l.foldl update a).keys ↔ k ∈ a.keys ∨ ∃ e ∈ l, k ∈ e.keys := by
  induction l with
  | nil => intro a k; simp
  | cons e l ih =>
    intro a k
    simp only [List.foldl_cons, ih, update_keys, List.mem_cons, exists_eq_or_imp, or_assoc]

theorem foldl_update_method (l : List Opts) : ∀ (a : Opts), a.method ≠ none → (l.foldl update a).method ≠ none := by
  induction l with
  | nil => intro a h; exact h
  | cons e l ih =>
    intro a h
    simp only [List.foldl_cons]
    refine ih _ ?_
    rw [update_method]
    cases e.method
    · simpa using h
    · simp

/-- Names that no GASP group declares. -/
def Foreign (k : String) : Prop := k ≠ "solve_alpha" ∧ ∀ c : Cls, k ∉ c.declared

/-- An option of a subsystem before aerodynamics (as propulsion is) that no aerodynamics group knows makes the ODE fail. -/
theorem carry_leak_violated (o : Ode) (ho : Carries o) (d : Dict) (bs : List Sub) (i j : ℕ) (hj : j < bs.length) (hij : i ≤ j)
    (b : Sub) (hb : bs[i]? = some b) (e : Opts) (he : d.lookup b.name = some e) (k : String) (hk : k ∈ e.keys) (hf : Foreign k)
    (hext : ∀ b ∈ bs, ∀ e, d.lookup b.name = some e → e.method ≠ some "external") :
    ∃ kw, (o.setup d bs).1[j]? = some (some kw) ∧ ¬ ∃ r, buildMission .gasp kw = .ok r := by
  refine ⟨_, carry_setup o ho d bs j hj, ?_⟩
  have hmem : e ∈ (bs.take (j + 1)).filterMap (fun b => d.lookup b.name) := by
    refine List.mem_filterMap.2 ⟨b, ?_, he⟩
    refine List.mem_of_getElem? (i := i) ?_
    rw [List.getElem?_take_of_lt (by omega), hb]
  have hsub : ∀ e' ∈ (bs.take (j + 1)).filterMap (fun b => d.lookup b.name), e'.method ≠ some "external" := by
    intro e' he'
    obtain ⟨b', hb', h'⟩ := List.mem_filterMap.1 he'
    exact hext b' (List.mem_of_mem_take hb') e' h'
  obtain ⟨l, hl⟩ : ∃ l, (bs.take (j + 1)).filterMap (fun b => d.lookup b.name) = l := ⟨_, rfl⟩
  rw [hl] at hmem hsub ⊢
  have hkey : k ∈ (l.foldl update o.base).keys := (foldl_update_keys l _ k).2 (Or.inr ⟨e, hmem, hk⟩)
  have hne : (l.foldl update o.base).method ≠ none :=
    foldl_update_method l _ (by rcases ho with rfl | ⟨c, rfl⟩ <;> simp [Ode.base])
  have hnx : ∀ (l : List Opts) (a : Opts), a.method ≠ some "external" → (∀ e' ∈ l, e'.method ≠ some "external") →
      (l.foldl update a).method ≠ some "external" := by
    intro l
    induction l with
    | nil => intro a h _; exact h
    | cons e l ih =>
      intro a h h'
      refine ih _ ?_ (fun e' he' => h' e' (List.mem_cons_of_mem _ he'))
      rw [update_method]
      have := h' e List.mem_cons_self
      cases hm : e.method with
      | none => simpa using h
      | some m => rw [hm] at this; simpa using this
  rw [build_ok_iff]
  rintro (h1 | h1 | ⟨m, c, h1, -, -, h4⟩)
  · refine hnx l o.base ?_ hsub h1
    rcases ho with rfl | ⟨c, rfl⟩
    · decide
    · cases c <;> decide
  · exact hne h1
  · refine hf.2 c (h4 k ?_)
    simp only [passed, List.mem_filter, decide_eq_true_eq]
    exact ⟨hkey, hf.1⟩

/-- An instance: an option for propulsion, which comes before aerodynamics. -/
example : ∃ kw, (Ode.groundroll.setup [("propulsion", ⟨none, [("interpolate", .flag true)]⟩)]
      [⟨"propulsion", .prop⟩, ⟨"aerodynamics", .aero .gasp⟩]).1[1]? = some (some kw) ∧ ¬ ∃ r, buildMission .gasp kw = .ok r :=
  carry_leak_violated .groundroll (.inl rfl) _ _ 0 1 (by decide) (by decide) _ rfl _ rfl "interpolate" (by decide)
    ⟨by decide, by intro c; cases c <;> decide⟩ (by
      intro b hb e he
      simp only [List.mem_cons, List.not_mem_nil, or_false] at hb
      rcases hb with rfl | rfl
      · have : e = ⟨none, [("interpolate", .flag true)]⟩ := (Option.some.inj he).symm
        rw [this]; simp
      · simp [List.lookup] at he)

/-- Without options for the subsystems before it a subsystem gets its own entry over the ODE's options. -/
theorem carry_partial (o : Ode) (ho : Carries o) (d : Dict) (bs : List Sub) (i : ℕ) (b : Sub) (hb : bs[i]? = some b)
    (h : ∀ b' ∈ bs.take i, d.lookup b'.name = none) :
    (o.setup d bs).1[i]? = some (some (match d.lookup b.name with | some e => update o.base e | none => o.base)) := by
  have hi : i < bs.length := by
    rcases Nat.lt_or_ge i bs.length with hi | hi
    · exact hi
    · rw [List.getElem?_eq_none hi] at hb; simp at hb
  rw [carry_setup o ho d bs i hi, List.take_add_one, hb, List.filterMap_append]
  have : (bs.take i).filterMap (fun b => d.lookup b.name) = [] := List.filterMap_eq_nil_iff.2 h
  rw [this]
  cases hd : d.lookup b.name <;> simp [hd]

/-! ### Flight path, landing and acceleration -/

theorem flightPath_setup (c : Bool) (d : Dict) (bs : List Sub) :
    (Ode.flightPath c).setup d bs = (bs.map (fun _ => some (Ode.flightPath c).base), d) := by
  have : ∀ (bs : List Sub) (s : St), (Ode.flightPath c).loop s bs = (bs.map (fun _ => some s.carry), s) := by
    intro bs
    induction bs with
    | nil => intro s; rfl
    | cons b bs ih => intro s; simp only [Ode.loop, Ode.step, ih, List.map_cons]
  simp only [Ode.setup, Ode.start, this]

theorem landing_setup (d : Dict) (bs : List Sub) :
    Ode.landing.setup d bs = (bs.map (fun b => match b.kind with
      | .aero _ => some Ode.landing.base | .prop => some noOpts | .other => none), d) := by
  have : ∀ (bs : List Sub) (s : St), Ode.landing.loop s bs = (bs.map (fun b => match b.kind with
      | .aero _ => some Ode.landing.base | .prop => some noOpts | .other => none), s) := by
    intro bs
    induction bs with
    | nil => intro s; rfl
    | cons b bs ih =>
      intro s
      simp only [Ode.loop, Ode.step, ih, List.map_cons]
      cases b.kind <;> rfl
  simp only [Ode.setup, Ode.start, this]

/-- The flight path and landing ODEs ignore the options of the user. -/
theorem ignores_user_violated (c : Bool) (d d' : Dict) (bs : List Sub) :
    ((Ode.flightPath c).setup d bs).1 = ((Ode.flightPath c).setup d' bs).1 ∧
    (Ode.landing.setup d bs).1 = (Ode.landing.setup d' bs).1 := by
  simp only [flightPath_setup, landing_setup, and_self]

/-- The flight path ODE gives the aerodynamics options to every other subsystem too. -/
theorem flightPath_all_violated (c : Bool) : ∃ b : Sub, b.isAero = false ∧
    ((Ode.flightPath c).setup [] [b]).1 ≠ [some noOpts] := by
  refine ⟨⟨"propulsion", .prop⟩, rfl, ?_⟩
  cases c <;> decide

theorem accel_loop (s : St) (bs : List Sub) :
    Ode.accel.loop s bs = (bs.map (fun b => some ((s.user.lookup b.name).getD noOpts)), s) := by
  induction bs with
  | nil => rfl
  | cons b bs ih => simp only [Ode.loop, Ode.step, ih, List.map_cons]

theorem append_lookup (d : Dict) (n : String) (o : Opts) (j : String) (h : d.lookup n = none) :
    (d ++ [(n, o)]).lookup j = if j = n then some o else d.lookup j := by
  induction d with
  | nil =>
    by_cases hj : j = n
    · subst hj; simp
    · simp [List.lookup, hj, beq_eq_false_iff_ne.2 hj]
  | cons p d ih =>
    obtain ⟨a, b⟩ := p
    have hn : ¬ n = a := by
      intro e; subst e; simp at h
    simp only [List.lookup, beq_eq_false_iff_ne.2 hn] at h
    by_cases hj : j = a
    · subst hj
      have : ¬ j = n := fun e => hn e.symm
      simp [this]
    · simp only [List.cons_append, List.lookup, beq_eq_false_iff_ne.2 hj, ih h]

theorem accel_start (d : Dict) (j : String) : (Ode.accel.start d).user.lookup j =
    if j = "aerodynamics" then some (update ((d.lookup "aerodynamics").getD noOpts) Ode.accel.base) else d.lookup j := by
  cases h : d.lookup "aerodynamics" with
  | none =>
    simp only [Ode.start, h, append_lookup d _ _ j h]
    rfl
  | some e =>
    simp only [Ode.start, h, setEntry_lookup]
    rfl

/-- The acceleration ODE: a subsystem named `'aerodynamics'` gets method and angle of attack output of the ODE. -/
theorem accel_partial (d : Dict) (bs : List Sub) (i : ℕ) (b : Sub) (hb : bs[i]? = some b) (hn : b.name = "aerodynamics") :
    ∃ kw, (Ode.accel.setup d bs).1[i]? = some (some kw) ∧ kw.method = some "cruise" ∧ outAlpha kw = some true ∧
      ∀ k, k ≠ "output_alpha" → kw.get k = ((d.lookup b.name).getD noOpts).get k := by
  refine ⟨update ((d.lookup "aerodynamics").getD noOpts) Ode.accel.base, ?_, rfl, ?_, ?_⟩
  · simp only [Ode.setup, accel_loop, List.getElem?_map, hb, Option.map_some, accel_start, hn, if_true, Option.getD_some]
  · simp only [outAlpha, update_get _ _ (show Ode.accel.base.keys.Nodup by decide)]
    have : Ode.accel.base.get "output_alpha" = some (.flag true) := by decide
    rw [this]; rfl
  · intro k hk
    rw [update_get _ _ (show Ode.accel.base.keys.Nodup by decide), hn]
    have : Ode.accel.base.get k = none := by simp [Ode.base, Opts.get, List.lookup, beq_eq_false_iff_ne.2 hk]
    rw [this, Option.none_or]

/-- Under another name the aerodynamics subsystem gets neither, and the lift required is not the weight. -/
theorem accel_name_violated (d : Dict) (b : Sub) (hn : b.name ≠ "aerodynamics") (h : d.lookup b.name = none) :
    (Ode.accel.setup d [b]).1 = [some noOpts] ∧ Ode.accel.base ≠ noOpts ∧
    missionInputs .gasp (some noOpts) = .ok [.name "*"] := by
  refine ⟨?_, by decide, by decide⟩
  simp only [Ode.setup, accel_loop, List.map_cons, List.map_nil, accel_start, hn, if_false, h]
  rfl

/-! ### What is built from the options of the ODEs -/

/-- With no options of the user the GASP aerodynamics are built for every ODE but the ascent with `clean`. -/
theorem base_build_iff (o : Ode) : (∃ r, buildMission .gasp o.base = .ok r) ↔ o ≠ .takeoff true false false := by
  have e : (∃ r, buildMission .gasp o.base = .ok r) ↔ (buildMission .gasp o.base).isOk = true := by
    cases buildMission .gasp o.base <;> simp [Except.isOk, Except.toBool]
  rw [e]
  cases o with
  | takeoff c g r => cases c <;> cases g <;> cases r <;> decide
  | flightPath c => cases c <;> decide
  | unsteady c => cases c <;> decide
  | _ => decide

/-- So an ascent without flaps and gear cannot be modelled: the options for retracting them are not known to the cruise group. -/
theorem clean_ascent_violated : buildMission .gasp (Ode.takeoff true false false).base = .error .key := by decide

/-- The user cannot repair it within the dictionary: whatever is added, the names stay, unless the method is changed. -/
theorem clean_ascent_stuck (d : Dict) (b : Sub) (e : Opts) (hb : b.isAero = true) (h : d.lookup b.name = some e)
    (hm : e.method = none ∨ e.method = some "cruise") :
    ¬ ∃ r, buildMission .gasp (takeoffOpts (.takeoff true false false) d b) = .ok r := by
  have hmeth : (takeoffOpts (.takeoff true false false) d b).method = some "cruise" := by
    simp only [takeoffOpts, h, hb, if_true, update_method]
    rcases hm with hm | hm <;> rw [hm] <;> rfl
  rw [build_ok_iff, hmeth]
  rintro (h1 | h1 | ⟨m, k, h1, h2, -, h4⟩)
  · exact absurd h1 (by decide)
  · exact absurd h1 (by decide)
  · obtain rfl : m = "cruise" := (Option.some.inj h1).symm
    have hk' : k = .cruise := by
      simp only [methodTable, List.mem_cons, Prod.mk.injEq, List.not_mem_nil, or_false] at h2
      rcases h2 with h2 | h2 | h2 | h2
      · exact h2.2
      all_goals exact absurd h2.1 (by decide)
    subst hk'
    have hp : "retract_gear" ∈ passed .gasp (takeoffOpts (.takeoff true false false) d b) := by
      simp only [passed, List.mem_filter]
      refine ⟨?_, by decide⟩
      simp only [takeoffOpts, h, hb, if_true, update_keys]
      exact Or.inl (by decide)
    exact absurd (h4 _ hp) (by decide)

/-- For FLOPS aerodynamics only the low speed defaults without retraction build; the clean solved flight, which renames the angle of
attack for FLOPS, never does. -/
theorem base_flops_iff (o : Ode) : (∃ r, buildMission .flops o.base = .ok r) ↔
    (∃ g r, o = .takeoff false g r ∧ (g || r) = true) ∨ o = .flightPath false ∨ o = .groundroll ∨ o = .unsteady false := by
  have e : (∃ r, buildMission .flops o.base = .ok r) ↔ (buildMission .flops o.base).isOk = true := by
    cases buildMission .flops o.base <;> simp [Except.isOk, Except.toBool]
  rw [e]
  cases o with
  | takeoff c g r => cases c <;> cases g <;> cases r <;> simp <;> decide
  | flightPath c => cases c <;> simp <;> decide
  | unsteady c => cases c <;> simp <;> decide
  | _ => simp <;> decide

/-- In the cruise ODEs the lift required is the weight and the angle of attack is an output, whatever the user gives. -/
theorem cruise_alpha (o : Ode) (ho : o = .breguet ∨ o = .simpleCruise) (d : Dict) (b : Sub) (hb : b.isAero = true) :
    missionInputs .gasp (some (overOpts o d b)) = .ok [.name "*", .rename "lift_req" "weight"] ∧
    missionOutputs .gasp (some (overOpts o d b)) = .ok (polar ++ ["angle_of_attack"]) := by
  have ho' : Overrides o := Or.inr ho
  have hm := over_method o ho' d b hb
  have ha : outAlpha (overOpts o d b) = some true := by
    simp only [outAlpha, overOpts, hb, if_true, update_get _ _ (base_keys o ho')]
    have : o.base.get "output_alpha" = some (.flag true) := by rcases ho with rfl | rfl <;> decide
    rw [this]; rfl
  constructor
  · simp [missionInputs, hm, ha]
  · simp [missionOutputs, hm, ha]

/-- In the flight ODE the maximum lift coefficient that the constraints read is promoted exactly when the user has not asked for the
angle of attack as an output. -/
theorem flight_clmax_iff (d : Dict) (b : Sub) (hb : b.isAero = true) :
    (∃ u, missionOutputs .gasp (some (overOpts .flight d b)) = .ok u ∧ (u.contains "CL_max" || u.contains "*") = true) ↔
      outAlpha ((d.lookup b.name).getD noOpts) ≠ some true := by
  have hm := over_method .flight (.inl rfl) d b hb
  have ha : outAlpha (overOpts .flight d b) = outAlpha ((d.lookup b.name).getD noOpts) := by
    simp only [outAlpha, overOpts, hb, if_true, update_get _ _ (base_keys .flight (.inl rfl))]
    rfl
  simp only [missionOutputs, hm, ha]
  obtain ⟨x, hx⟩ : ∃ x, outAlpha ((d.lookup b.name).getD noOpts) = x := ⟨_, rfl⟩
  rw [hx]
  rcases x with _ | _ | _ <;> simp [polar]

/-! ### Parameters -/

/-- The parameters of a phase are those of the user's entry, not of the options of the ODE, so without options a takeoff phase gets
the parameters of cruise: the maximum lift coefficient with flaps is missing. -/
theorem takeoff_params_violated (i : Inputs) (hb : i.bwb = false) :
    (takeoffOpts (.takeoff false true false) [] ⟨"aerodynamics", .aero .gasp⟩).method = some "low_speed" ∧
    (∃ p, getParameters .gasp i (some ⟨some "low_speed", []⟩) = .ok p ∧ "mission:takeoff:lift_coefficient_max" ∈ p.map (·.1)) ∧
    ∃ p, getParameters .gasp i (some noOpts) = .ok p ∧ "mission:takeoff:lift_coefficient_max" ∉ p.map (·.1) := by
  have fst : ∀ l : List String, (l.map (valueOf i)).map (·.1) = l := by
    intro l; simp [valueOf, Function.comp_def]
  refine ⟨by decide, ?_, ?_⟩
  · refine ⟨_, by simp [getParameters, paramsGasp, hb, solveAlpha, Opts.get]; rfl, ?_⟩
    rw [fst, List.mem_dedup]; decide
  · refine ⟨_, by simp [getParameters, paramsGasp, hb, solveAlpha, Opts.get, noOpts]; rfl, ?_⟩
    rw [fst, List.mem_dedup]; decide

/-! ### The flag for tables -/

/-- Phases of the mission proper. -/
def inner (ps : List PhaseOpt) : List PhaseOpt := ps.filter (fun p => decide (p.name ≠ "pre_mission" ∧ p.name ≠ "post_mission"))

theorem tabularFlag_snoc (ps : List PhaseOpt) (p : PhaseOpt) : tabularFlag (ps ++ [p]) =
    if p.name = "pre_mission" ∨ p.name = "post_mission" then tabularFlag ps
    else match p.method with
      | some m => if isTabular m then true else tabularFlag ps
      | none => false := by
  unfold tabularFlag
  rw [List.foldl_append]
  rfl

/-- The flag is set exactly when some phase asks for a table and no later one leaves its method out. -/
theorem tabularFlag_iff (ps : List PhaseOpt) : tabularFlag ps = true ↔
    ∃ l p r m, inner ps = l ++ p :: r ∧ p.method = some m ∧ isTabular m = true ∧ ∀ q ∈ r, q.method ≠ none := by
  induction ps using List.reverseRecOn with
  | nil => simp [tabularFlag, inner]
  | append_singleton ps p ih =>
    rw [tabularFlag_snoc]
    by_cases hn : p.name = "pre_mission" ∨ p.name = "post_mission"
    · have : inner (ps ++ [p]) = inner ps := by
        have hd : ¬ (p.name ≠ "pre_mission" ∧ p.name ≠ "post_mission") := by tauto
        simp only [inner, List.filter_append, List.filter_cons, List.filter_nil, hd, decide_false, Bool.false_eq_true, if_false,
          List.append_nil]
      rw [if_pos hn, this, ih]
    · have : inner (ps ++ [p]) = inner ps ++ [p] := by
        have hd : p.name ≠ "pre_mission" ∧ p.name ≠ "post_mission" := by tauto
        simp only [inner, List.filter_append, List.filter_cons, List.filter_nil, hd, ne_eq, not_false_eq_true, and_self, decide_true,
          if_true]
      rw [if_neg hn, this]
      cases hm : p.method with
      | none =>
        simp only [Bool.false_eq_true, false_iff, not_exists]
        rintro l q r m ⟨h1, h2, -, h4⟩
        rcases List.eq_nil_or_concat r with rfl | ⟨r', x, rfl⟩
        · have := (List.append_inj' h1 rfl).2
          simp only [List.cons.injEq, and_true] at this
          subst this; rw [hm] at h2; simp at h2
        · rw [List.concat_eq_append, ← List.cons_append, ← List.append_assoc] at h1
          have := (List.append_inj' h1 rfl).2
          simp only [List.cons.injEq, and_true] at this
          subst this
          exact h4 p (by simp) hm
      | some m =>
        show (if isTabular m = true then true else tabularFlag ps) = true ↔ _
        cases ht : isTabular m
        · rw [if_neg (by simp), ih]
          constructor
          · rintro ⟨l, q, r, m', h1, h2, h3, h4⟩
            refine ⟨l, q, r ++ [p], m', by simp [h1], h2, h3, ?_⟩
            intro x hx
            rcases List.mem_append.1 hx with hx | hx
            · exact h4 x hx
            · simp only [List.mem_singleton] at hx; subst hx; rw [hm]; simp
          · rintro ⟨l, q, r, m', h1, h2, h3, h4⟩
            rcases List.eq_nil_or_concat r with rfl | ⟨r', x, rfl⟩
            · have := (List.append_inj' h1 rfl).2
              simp only [List.cons.injEq, and_true] at this
              subst this; rw [hm] at h2
              rw [← Option.some.inj h2, ht] at h3; simp at h3
            · rw [List.concat_eq_append, ← List.cons_append, ← List.append_assoc] at h1
              refine ⟨l, q, r', m', (List.append_inj' h1 rfl).1, h2, h3, fun x hx => h4 x (by simp [hx])⟩
        · rw [if_pos rfl]
          simp only [true_iff]
          exact ⟨inner ps, p, [], m, rfl, hm, ht, by simp⟩

/-- If every phase asks for a table the flag is set, and if none does it is not. -/
theorem tabularFlag_partial (ps : List PhaseOpt) :
    (inner ps ≠ [] → (∀ p ∈ inner ps, ∃ m, p.method = some m ∧ isTabular m = true) → tabularFlag ps = true) ∧
    ((∀ p ∈ inner ps, ∀ m, p.method = some m → isTabular m = false) → tabularFlag ps = false) := by
  constructor
  · intro hne h
    cases hi : inner ps with
    | nil => exact absurd hi hne
    | cons p r =>
      obtain ⟨m, h1, h2⟩ := h p (by rw [hi]; exact List.mem_cons_self)
      refine (tabularFlag_iff ps).2 ⟨[], p, r, m, hi, h1, h2, fun q hq => ?_⟩
      obtain ⟨m', h', -⟩ := h q (by rw [hi]; exact List.mem_cons_of_mem _ hq)
      rw [h']; simp
  · intro h
    cases ht : tabularFlag ps
    · rfl
    · obtain ⟨l, p, r, m, h1, h2, h3, -⟩ := (tabularFlag_iff ps).1 ht
      have := h p (by rw [h1]; simp) m h2
      rw [h3] at this; simp at this

/-- The comment says all phases, but one is enough: the pre-mission group is then skipped for a phase that computes its drag. -/
theorem tabularFlag_violated : ∃ ps : List PhaseOpt, (∃ p ∈ inner ps, p.method = some "cruise") ∧ tabularFlag ps = true ∧
    preMission .gasp (tabularFlag ps) noOpts ≠ preMission .gasp false noOpts :=
  ⟨[⟨"climb", some "tabular_cruise"⟩, ⟨"cruise", some "cruise"⟩], by decide, by decide, by decide⟩

/-- And the order of the phases matters. -/
theorem tabularFlag_order_violated : ∃ ps : List PhaseOpt, tabularFlag ps ≠ tabularFlag ps.reverse :=
  ⟨[⟨"climb", some "tabular_cruise"⟩, ⟨"cruise", none⟩], by decide⟩

/-- Off the ground the takeoff aerodynamics retract gear and flaps, on the ground neither; the landing ODE retracts the flaps and keeps
the gear down. -/
theorem retract_defaults (c g r : Bool) :
    (Ode.takeoff c g r).base.get "retract_gear" = (if g = false ∧ r = false then some (.flag true) else none) ∧
    (Ode.takeoff c g r).base.get "retract_flaps" = (if g = false ∧ r = false then some (.flag true) else none) ∧
    Ode.landing.base.get "retract_flaps" = some (.flag true) ∧ Ode.landing.base.get "retract_gear" = some (.flag false) := by
  cases c <;> cases g <;> cases r <;> decide

/-- Whoever the user is, the landing aerodynamics get these flags. -/
theorem landing_flags (s : St) (b : Sub) (hb : b.isAero = true) :
    ∃ o, (Ode.landing.step s b).1 = some o ∧ o.get "retract_flaps" = some (.flag true) ∧
      o.get "retract_gear" = some (.flag false) ∧ o.method = some "low_speed" := by
  obtain ⟨n, k⟩ := b
  cases k with
  | aero x => exact ⟨_, rfl, by decide, by decide, rfl⟩
  | prop => simp [Sub.isAero] at hb
  | other => simp [Sub.isAero] at hb

end Verif.OdeOpts
