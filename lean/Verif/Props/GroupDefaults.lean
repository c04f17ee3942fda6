import Verif.Model.GroupDefaults
import Verif.Lemmas.Dict
import Verif.Props.AviaryValues

/-!
# C121: values given to the inputs of the Aviary group
-/

namespace Verif.GroupDefaults

open Declare

/-- Some subsystem has the name as a promoted input, or is asked to promote it, perhaps as an alias. -/
def IsPromoted (ss : List Sub) (key : String) : Prop :=
  ∃ s ∈ ss, key ∈ s.listed ∨ (∃ n, .inr (n, key) ∈ s.promotes) ∨ .inl key ∈ s.promotes

theorem mem_allPromoted (ss : List Sub) (key : String) : key ∈ allPromoted ss ↔ IsPromoted ss key := by
  simp only [allPromoted, IsPromoted, List.mem_flatMap, promoted, List.mem_append, List.mem_filterMap]
  refine exists_congr fun s => and_congr_right fun _ => ?_
  constructor
  · rintro ((h | ⟨p, hp, h⟩) | ⟨p, hp, h⟩)
    · exact .inl h
    · cases p with
      | inl n => cases h
      | inr q => obtain ⟨n, a⟩ := q; cases h; exact .inr (.inl ⟨n, hp⟩)
    · cases p with
      | inl n => cases h; exact .inr (.inr hp)
      | inr q => cases h
  · rintro (h | ⟨n, h⟩ | h)
    · exact .inl (.inl h)
    · exact .inl (.inr ⟨_, h, rfl⟩)
    · exact .inr ⟨_, h, rfl⟩

/-- A group reads the variable through this input: as a parameter of the trajectory, or under its own name elsewhere. -/
def Reads (ss : List Sub) (key : String) (i : Inp) : Prop :=
  ∃ s ∈ ss, s.isGroup = true ∧ i ∈ s.inputs ∧
    ((s.path = "traj" ∧ i.name = "parameters:" ++ key) ∨
      (s.path ≠ "traj" ∧ i.name = key ∧ (starts "aircraft" key = true ∨ starts "mission" key = true)))

theorem starts_iff (p n : String) : starts p n = true ↔ ∃ r : String, n = p ++ r := by
  simp only [starts, decide_eq_true_eq]
  constructor
  · rintro ⟨r, hr⟩
    refine ⟨String.ofList r, ?_⟩
    apply String.toList_inj.1
    rw [String.toList_append, String.toList_ofList, hr]
  · rintro ⟨r, rfl⟩
    rw [String.toList_append]
    exact List.prefix_append ..

theorem stripParam_append (k : String) : stripParam ("parameters:" ++ k) = k := by
  have h : starts "parameters:" ("parameters:" ++ k) = true := (starts_iff _ _).2 ⟨k, rfl⟩
  rw [stripParam, if_pos h]
  apply String.toList_inj.1
  rw [String.toList_ofList, String.toList_append]
  exact List.drop_left' rfl

theorem not_param (n : String) (h : starts "aircraft" n = true ∨ starts "mission" n = true) : starts "parameters:" n = false := by
  rcases hb : starts "parameters:" n with _ | _
  · rfl
  · obtain ⟨r, hr⟩ := (starts_iff _ _).1 hb
    exfalso
    rcases h with h | h <;> obtain ⟨r', hr'⟩ := (starts_iff _ _).1 h
    all_goals
      have e := congrArg String.toList (hr.symm.trans hr')
      rw [String.toList_append, String.toList_append] at e
      have := congrArg (fun l => l[0]?) e
      simp at this

/-- The inputs looked at, by the name of the variable they read. -/
theorem mem_allLooked (ss : List Sub) (key : String) (b : Bool) (n : ℕ) :
    (⟨key, b, n⟩ : Inp) ∈ allLooked ss ↔ ∃ i, Reads ss key i ∧ i.sbc = b ∧ i.size = n := by
  simp only [allLooked, List.mem_flatMap, List.mem_filter, looked, List.mem_map]
  constructor
  · rintro ⟨s, ⟨hs, hg⟩, i, ⟨hi, hf⟩, e⟩
    have e1 : stripParam i.name = key := congrArg Inp.name e
    have e2 : i.sbc = b := congrArg Inp.sbc e
    have e3 : i.size = n := congrArg Inp.size e
    refine ⟨i, ⟨s, hs, hg, hi, ?_⟩, e2, e3⟩
    by_cases hp : s.path = "traj"
    · rw [if_pos hp] at hf
      obtain ⟨r, hr⟩ := (starts_iff _ _).1 hf
      rw [hr, stripParam_append] at e1
      exact .inl ⟨hp, e1 ▸ hr⟩
    · rw [if_neg hp, Bool.or_eq_true] at hf
      rw [stripParam, not_param _ hf] at e1
      simp only [Bool.false_eq_true, if_false] at e1
      exact .inr ⟨hp, e1, e1 ▸ hf⟩
  · rintro ⟨i, ⟨s, hs, hg, hi, h⟩, rfl, rfl⟩
    refine ⟨s, ⟨hs, hg⟩, i, ⟨hi, ?_⟩, ?_⟩
    · rcases h with ⟨hp, h⟩ | ⟨hp, h, hk⟩
      · rw [if_pos hp]; exact (starts_iff _ _).2 ⟨key, h⟩
      · rw [if_neg hp, Bool.or_eq_true, h]; exact hk
    · have : stripParam i.name = key := by
        rcases h with ⟨_, h⟩ | ⟨_, h, hk⟩
        · rw [h, stripParam_append]
        · rw [h, stripParam, not_param _ hk]; rfl
      rw [this]

theorem scan_names (l : List Inp) (a b : List String) (d : Dict String ℕ) (k : String) :
    (k ∈ (scan l (a, b, d)).1 ↔ k ∈ a ∨ ∃ i ∈ l, i.name = k ∧ i.sbc = true) ∧
    (k ∈ (scan l (a, b, d)).2.1 ↔ k ∈ b ∨ ∃ i ∈ l, i.name = k ∧ i.sbc = false) := by
  induction l generalizing a b d with
  | nil => simp [scan]
  | cons i l ih =>
    simp only [scan]
    cases hi : i.sbc
    · simp only [Bool.false_eq_true, if_false, (ih _ _ _).1, (ih _ _ _).2, List.mem_cons, exists_eq_or_imp, hi]
      refine ⟨by simp, ?_⟩
      rw [eq_comm (a := k)]
      simp only [and_true]
      tauto
    · simp only [if_true, (ih _ _ _).1, (ih _ _ _).2, List.mem_cons, exists_eq_or_imp, hi]
      refine ⟨?_, by simp⟩
      rw [eq_comm (a := k)]
      simp only [and_true]
      tauto

/-- A value is left out exactly for a variable that groups read and that takes its shape from the connection in all of them. -/
theorem getsVal_false_iff (ss : List Sub) (key : String) :
    getsVal ss key = false ↔ (∃ i, Reads ss key i) ∧ ∀ i, Reads ss key i → i.sbc = true := by
  have e : ∀ b, (∃ i ∈ allLooked ss, i.name = key ∧ i.sbc = b) ↔ ∃ i, Reads ss key i ∧ i.sbc = b := by
    intro b
    constructor
    · rintro ⟨⟨n, c, z⟩, hi, rfl, rfl⟩
      obtain ⟨j, hj, h1, _⟩ := (mem_allLooked ss _ _ _).1 hi
      exact ⟨j, hj, h1⟩
    · rintro ⟨i, hi, rfl⟩
      exact ⟨⟨key, i.sbc, i.size⟩, (mem_allLooked ss _ _ _).2 ⟨i, hi, rfl, rfl⟩, rfl, rfl⟩
  simp only [getsVal, Bool.not_eq_false', Bool.and_eq_true, decide_eq_true_eq, Bool.not_eq_true', decide_eq_false_iff_not,
    (scan_names _ _ _ _ _).1, (scan_names _ _ _ _ _).2, List.not_mem_nil, false_or, e]
  constructor
  · rintro ⟨⟨i, hi, _⟩, h⟩
    refine ⟨⟨i, hi⟩, fun j hj => ?_⟩
    by_contra hb
    exact h ⟨j, hj, by simpa using hb⟩
  · rintro ⟨⟨i, hi⟩, h⟩
    exact ⟨⟨i, hi, h i hi⟩, fun ⟨j, hj, hb⟩ => by rw [h j hj] at hb; cases hb⟩

theorem scan_shapes (l : List Inp) (a b : List String) (d : Dict String ℕ) (k : String) (n : ℕ)
    (h : Dict.get? (scan l (a, b, d)).2.2 k = some n) :
    Dict.get? d k = some n ∨ ∃ i ∈ l, i.name = k ∧ i.sbc = false ∧ i.size = n ∧ 1 < n := by
  induction l generalizing a b d with
  | nil => exact .inl h
  | cons i l ih =>
    simp only [scan] at h
    cases hi : i.sbc
    · rw [hi] at h
      simp only [Bool.false_eq_true, if_false] at h
      rcases ih _ _ _ h with h | ⟨j, hj, h⟩
      · by_cases hs : 1 < i.size
        · rw [if_pos hs, Dict.get?_set] at h
          split_ifs at h with hk
          · cases h
            exact .inr ⟨i, List.mem_cons_self .., hk, hi, rfl, hs⟩
          · exact .inl h
        · rw [if_neg hs] at h
          exact .inl h
      · exact .inr ⟨j, List.mem_cons_of_mem _ hj, h⟩
    · rw [hi] at h
      simp only [if_true] at h
      rcases ih _ _ _ h with h | ⟨j, hj, h⟩
      · exact .inl h
      · exact .inr ⟨j, List.mem_cons_of_mem _ hj, h⟩

theorem scan_shaped (l : List Inp) (a b : List String) (d : Dict String ℕ) (k : String)
    (h : (Dict.get? d k).isSome = true ∨ ∃ i ∈ l, i.name = k ∧ i.sbc = false ∧ 1 < i.size) :
    (Dict.get? (scan l (a, b, d)).2.2 k).isSome = true := by
  induction l generalizing a b d with
  | nil => simpa [scan] using h
  | cons i l ih =>
    simp only [scan]
    cases hi : i.sbc
    · simp only [Bool.false_eq_true, if_false]
      apply ih
      rcases h with h | ⟨j, hj, h⟩
      · left
        split_ifs
        · rw [Dict.get?_set]; split_ifs
          · rfl
          · exact h
        · exact h
      · rcases List.mem_cons.1 hj with rfl | hj
        · left
          rw [if_pos h.2.2, Dict.get?_set, if_pos h.1]; rfl
        · exact .inr ⟨j, hj, h⟩
    · simp only [if_true]
      apply ih
      rcases h with h | ⟨j, hj, h⟩
      · exact .inl h
      · rcases List.mem_cons.1 hj with rfl | hj
        · rw [hi] at h; cases h.2.1
        · exact .inr ⟨j, hj, h⟩

/-- The default of the metadata as it is set: a number for several values fills the number of entries of an input that reads it, if
there is one with several; everything else stays. -/
theorem metaVal_spec (ss : List Sub) (key : String) (m : VarMeta) (q : ℚ) (hq : m.dflt = .float q) :
    (m.multivalue = false → metaVal ss key m = .ok (.float q)) ∧
    ((∀ i, Reads ss key i → i.sbc = true ∨ i.size ≤ 1) → metaVal ss key m = .ok (.float q)) ∧
    (m.multivalue = true → (∃ i, Reads ss key i ∧ i.sbc = false ∧ 1 < i.size) →
      ∃ i, Reads ss key i ∧ i.sbc = false ∧ 1 < i.size ∧ metaVal ss key m = .ok (.arrF (List.replicate i.size q))) := by
  refine ⟨fun h => ?_, fun h => ?_, fun hm ⟨i, hi, hb, hs⟩ => ?_⟩
  · simp only [metaVal, h, hq]
  · have : Dict.get? (scan (allLooked ss) ([], [], [])).2.2 key = none := by
      cases hn : Dict.get? (scan (allLooked ss) ([], [], [])).2.2 key with
      | none => rfl
      | some n =>
        exfalso
        rcases scan_shapes _ _ _ _ _ _ hn with h' | ⟨⟨_, _, _⟩, hj, rfl, rfl, rfl, hs⟩
        · cases h'
        · obtain ⟨i, hi, hb, rfl⟩ := (mem_allLooked ss _ _ _).1 hj
          rcases h i hi with h | h
          · rw [h] at hb; cases hb
          · exact absurd hs (by simpa using h)
    simp only [metaVal, this, hq]
    split
    · rename_i h; cases h
    · rfl
  · have : (Dict.get? (scan (allLooked ss) ([], [], [])).2.2 key).isSome = true :=
      scan_shaped _ _ _ _ _ (.inr ⟨⟨key, i.sbc, i.size⟩, (mem_allLooked ss _ _ _).2 ⟨i, hi, rfl, rfl⟩, rfl, hb, hs⟩)
    obtain ⟨n, hn⟩ := Option.isSome_iff_exists.1 this
    rcases scan_shapes _ _ _ _ _ _ hn with h' | ⟨⟨_, _, _⟩, hj, rfl, rfl, rfl, hs⟩
    · cases h'
    · obtain ⟨j, hj2, hb, rfl⟩ := (mem_allLooked ss _ _ _).1 hj
      exact ⟨j, hj2, hb, hs, by simp only [metaVal, hm, hn, hq, fill]⟩

theorem considered_iff (ss : List Sub) (key : String) (m : VarMeta) :
    considered ss key m = true ↔ ':' ∈ key.toList ∧ starts "dynamic:" key = false ∧ m.option = false ∧ IsPromoted ss key := by
  simp only [considered, Bool.and_eq_true, decide_eq_true_eq, Bool.not_eq_true', mem_allPromoted, and_assoc]

theorem one_key (ss : List Sub) (user : Dict String (PVal × String)) (key : String) (m : VarMeta) (c : Call)
    (h : one ss user key m = .ok (some c)) : c.key = key := by
  unfold one at h
  by_cases hc : considered ss key m = false
  · rw [if_pos hc] at h; cases h
  · rw [if_neg hc] at h
    split at h
    · cases h; rfl
    · split at h
      · cases h
      · split_ifs at h
        · cases hv : metaVal ss key m with
          | error e => rw [hv] at h; cases h
          | ok v => rw [hv] at h; cases h; rfl
        · cases h; rfl

/-- The calls are those of the single variables, one at most for each. -/
theorem configure_calls (ss : List Sub) (user : Dict String (PVal × String)) (md : Dict String VarMeta) (cs : List Call)
    (h : configure ss user md = .ok cs) :
    (∀ c, c ∈ cs ↔ ∃ p ∈ md, one ss user p.1 p.2 = .ok (some c)) ∧ (cs.map (·.key)).Sublist md.keys := by
  induction md generalizing cs with
  | nil => cases h; exact ⟨by simp, List.Sublist.refl _⟩
  | cons p md ih =>
    obtain ⟨k, m⟩ := p
    simp only [configure] at h
    cases h1 : one ss user k m with
    | error e => simp only [h1] at h; cases h
    | ok c0 =>
      simp only [h1] at h
      cases h2 : configure ss user md with
      | error e => simp only [h2] at h; cases h
      | ok cs' =>
        simp only [h2] at h
        cases h
        obtain ⟨i1, i2⟩ := ih cs' h2
        constructor
        · intro c
          rw [List.mem_append, i1]
          simp only [Option.mem_toList, List.mem_cons, exists_eq_or_imp, h1, Except.ok.injEq]
        · cases c0 with
          | none => exact i2.cons _
          | some c =>
            have := one_key ss user k m c h1
            simp only [Option.toList_some, List.cons_append, List.nil_append, List.map_cons, Dict.keys, this]
            exact i2.cons_cons _

/-- A value of the user for an aircraft or mission variable that is an input of the model and not an option is set exactly once, in the
units of the user, unless every group takes its shape from the connection. -/
theorem user_value_partial (ss : List Sub) (user : Dict String (PVal × String)) (md : Dict String VarMeta) (cs : List Call)
    (h : configure ss user md = .ok cs) (hd : md.keys.Nodup) (key : String) (m : VarMeta) (hm : md.get? key = some m)
    (hk : ':' ∈ key.toList) (hdyn : starts "dynamic:" key = false) (ho : m.option = false) (hp : IsPromoted ss key)
    (v : PVal) (u : String) (hu : user.get? key = some (v, u)) (hs : ¬ ((∃ i, Reads ss key i) ∧ ∀ i, Reads ss key i → i.sbc = true)) :
    cs.filter (fun c => c.key = key) = [⟨key, u, some v⟩] := by
  obtain ⟨h1, h2⟩ := configure_calls ss user md cs h
  have hg : getsVal ss key = true := by
    cases hg : getsVal ss key with
    | true => rfl
    | false => exact (hs ((getsVal_false_iff ss key).1 hg)).elim
  have hone : one ss user key m = .ok (some ⟨key, u, some v⟩) := by
    simp only [one, (considered_iff ss key m).2 ⟨hk, hdyn, ho, hp⟩, hu, hg, if_true, Bool.true_eq_false, if_false]
  have hmem : (⟨key, u, some v⟩ : Call) ∈ cs := (h1 _).2 ⟨(key, m), Dict.mem_of_get? md hm, hone⟩
  have hnd : (cs.map (·.key)).Nodup := h2.nodup hd
  clear h h1 h2
  induction cs with
  | nil => cases hmem
  | cons c cs ih =>
    rw [List.map_cons, List.nodup_cons] at hnd
    rcases List.mem_cons.1 hmem with rfl | hmem
    · rw [List.filter_cons_of_pos (by simp)]
      congr 1
      rw [List.filter_eq_nil_iff]
      intro c hc he
      exact hnd.1 (List.mem_map.2 ⟨c, hc, by simpa using he⟩)
    · have : c.key ≠ key := fun e => hnd.1 (List.mem_map.2 ⟨_, hmem, e.symm⟩)
      rw [List.filter_cons_of_neg (by simpa using this)]
      exact ih hmem hnd.2

/-- Nothing is set for options, time-dependent variables, names without a colon and names that are not inputs; nor for a variable
without default that the user does not give. -/
theorem not_set (ss : List Sub) (user : Dict String (PVal × String)) (md : Dict String VarMeta) (cs : List Call)
    (h : configure ss user md = .ok cs) (hd : md.keys.Nodup) (c : Call) (hc : c ∈ cs) :
    ∃ m, md.get? c.key = some m ∧ ':' ∈ c.key.toList ∧ starts "dynamic:" c.key = false ∧ m.option = false ∧ IsPromoted ss c.key ∧
      (user.get? c.key = none → m.dflt ≠ .none ∧ c.units = m.units) := by
  obtain ⟨⟨k, m⟩, hp, ho⟩ := ((configure_calls ss user md cs h).1 c).1 hc
  have hk := one_key ss user k m c ho
  subst hk
  have hcons : considered ss c.key m = true := by
    cases hb : considered ss c.key m with
    | true => rfl
    | false => simp only [one, hb, if_true] at ho; cases ho
  obtain ⟨a1, a2, a3, a4⟩ := (considered_iff _ _ _).1 hcons
  refine ⟨m, Dict.get?_of_mem md hd hp, a1, a2, a3, a4, fun hu => ?_⟩
  simp only [one, hcons, hu, Bool.true_eq_false, if_false] at ho
  split at ho
  · cases ho
  · rename_i hn
    refine ⟨hn, ?_⟩
    split_ifs at ho
    · cases hv : metaVal ss c.key m with
      | error e => rw [hv] at ho; cases ho
      | ok v => rw [hv] at ho; simp only [Except.map, Except.ok.injEq, Option.some.injEq] at ho; rw [← ho]
    · simp only [Except.ok.injEq, Option.some.injEq] at ho; rw [← ho]

/-- Only a text as default of a variable with several values can stop the loop. -/
theorem configure_error (ss : List Sub) (user : Dict String (PVal × String)) (md : Dict String VarMeta) (e : Err)
    (h : configure ss user md = .error e) :
    e = .valueError ∧ ∃ p ∈ md, p.2.multivalue = true ∧ user.get? p.1 = none ∧ ∃ s, p.2.dflt = .str s := by
  induction md with
  | nil => cases h
  | cons p md ih =>
    obtain ⟨k, m⟩ := p
    simp only [configure] at h
    cases h1 : one ss user k m with
    | error e' =>
      simp only [h1] at h
      cases h
      unfold one at h1
      by_cases hc : considered ss k m = false
      · rw [if_pos hc] at h1; cases h1
      rw [if_neg hc] at h1
      split at h1
      · cases h1
      · rename_i hu
        split at h1
        · cases h1
        · split_ifs at h1
          cases hv : metaVal ss k m with
          | ok v => rw [hv] at h1; cases h1
          | error e =>
            rw [hv] at h1; cases h1
            unfold metaVal at hv
            split at hv
            · rename_i n hm hn
              cases hf : m.dflt <;> rw [hf] at hv <;> simp only [fill] at hv <;> cases hv
              exact ⟨rfl, _, List.mem_cons_self .., hm, hu, _, hf⟩
            · cases hv
    | ok c =>
      simp only [h1] at h
      cases h2 : configure ss user md with
      | error e' =>
        simp only [h2] at h; cases h
        obtain ⟨a, p, hp, b⟩ := ih h2
        exact ⟨a, p, List.mem_cons_of_mem _ hp, b⟩
      | ok cs => simp only [h2] at h; cases h

/-! ## Witnesses -/

/-- A group whose only use of the variable takes its shape from the connection. -/
def exSbc : List Sub := [⟨true, "pre_mission", ["aircraft:x"], [], [⟨"aircraft:x", true, 1⟩]⟩]

/-- One variable with default 1. -/
def exMd : Dict String VarMeta := [("aircraft:x", ⟨⟨some [.float], true, "ft"⟩, .float 1, "", false⟩)]

/-- Where only `shape_by_conn` inputs read a variable the value of the user is dropped: only the units are set. -/
theorem user_value_violated : ∃ cs, configure exSbc [("aircraft:x", (.float 7, "m"))] exMd = .ok cs ∧
    cs.map (fun c => (c.key, c.units)) = [("aircraft:x", "m")] ∧ ∀ c ∈ cs, c.val = none := by
  have hg : getsVal exSbc "aircraft:x" = false := by decide +kernel
  have hc : considered exSbc "aircraft:x" ⟨⟨some [.float], true, "ft"⟩, .float 1, "", false⟩ = true :=
    (considered_iff _ _ _).2 ⟨by decide, by decide +kernel, rfl, ⟨_, List.mem_singleton_self _, .inl (List.mem_singleton_self _)⟩⟩
  refine ⟨[⟨"aircraft:x", "m", none⟩], ?_, rfl, by simp⟩
  simp [configure, exMd, one, hc, hg, Dict.get?]

/-- Two groups that read the variable with different numbers of entries. -/
def exShape (a b : ℕ) : List Sub := [⟨true, "pre_mission", ["aircraft:x"], [], [⟨"aircraft:x", false, a⟩]⟩,
  ⟨true, "post_mission", ["aircraft:x"], [], [⟨"aircraft:x", false, b⟩]⟩]

/-- The order of the subsystems decides which number of entries the default gets. -/
theorem shape_order_violated (q : ℚ) :
    (∀ m : VarMeta, m.multivalue = true → m.dflt = .float q →
      metaVal (exShape 2 3) "aircraft:x" m = .ok (.arrF [q, q, q]) ∧ metaVal (exShape 3 2) "aircraft:x" m = .ok (.arrF [q, q])) := by
  have h1 : Dict.get? (scan (allLooked (exShape 2 3)) ([], [], [])).2.2 "aircraft:x" = some 3 := by decide +kernel
  have h2 : Dict.get? (scan (allLooked (exShape 3 2)) ([], [], [])).2.2 "aircraft:x" = some 2 := by decide +kernel
  intro m hm hq
  exact ⟨by simp only [metaVal, hm, h1, hq, fill]; rfl, by simp only [metaVal, hm, h2, hq, fill]; rfl⟩

/-! ## Defaults of the options -/

/-- The container gets exactly the options with a default, and a value of the types of the metadata. -/
theorem optionDefaults_spec (db : UnitDB) (rt : PyRT) (md l : Dict String VarMeta) (s r : NV) (hl : ∀ p ∈ l, md.get? p.1 = some p.2)
    (h : optionDefaults db rt md l s = .ok r) (k : String) :
    (r.get? k).isSome = true ↔ (s.get? k).isSome = true ∨ ∃ m, (k, m) ∈ l ∧ m.option = true ∧ m.dflt ≠ .none := by
  induction l generalizing s with
  | nil => cases h; simp
  | cons p l ih =>
    obtain ⟨k', m⟩ := p
    have hl' : ∀ p ∈ l, md.get? p.1 = some p.2 := fun p hp => hl p (List.mem_cons_of_mem _ hp)
    simp only [optionDefaults] at h
    by_cases ho : m.option = true
    · rw [if_pos ho] at h
      by_cases hn : m.dflt = .none
      · simp only [hn] at h
        rw [ih s hl' h]
        refine or_congr Iff.rfl (exists_congr fun m' => ?_)
        rw [List.mem_cons]
        constructor
        · rintro ⟨a, b⟩; exact ⟨.inr a, b⟩
        · rintro ⟨a | a, b, c⟩
          · cases a; exact (c hn).elim
          · exact ⟨a, b, c⟩
      · have h' : (match avSet db rt (md.map (fun p => (p.1, p.2.toMeta))) s k' m.dflt (some m.units) with
            | .error e => .error e
            | .ok s' => optionDefaults db rt md l s') = (.ok r : Except Err NV) := by
          cases hv : m.dflt <;> simp only [hv] at h <;> first | exact (hn hv).elim | exact h
        cases hs : avSet db rt (md.map (fun p => (p.1, p.2.toMeta))) s k' m.dflt (some m.units) with
        | error e => simp only [hs] at h'; cases h'
        | ok s' =>
          simp only [hs] at h'
          have hget : ∀ (d : Dict String VarMeta), Dict.get? d k' = some m →
              Dict.get? (d.map (fun p => (p.1, p.2.toMeta))) k' = some m.toMeta := by
            intro d
            induction d with
            | nil => intro h; cases h
            | cons p d ih =>
              intro h
              simp only [Dict.get?] at h
              simp only [List.map_cons, Dict.get?]
              split_ifs at h ⊢ with e
              · cases h; rfl
              · exact ih h
          obtain ⟨w, u', _, _, _, _, e⟩ := avSet_ok db rt _ s s' k' m.dflt _ m.toMeta (hget md (hl _ (List.mem_cons_self ..))) hs
          rw [ih s' hl' h', e, Dict.get?_set]
          by_cases hk : k' = k
          · subst hk
            simp only [if_true, Option.isSome_some, true_or, true_iff]
            exact .inr ⟨m, List.mem_cons_self .., ho, hn⟩
          · rw [if_neg hk]
            refine or_congr Iff.rfl (exists_congr fun m' => ?_)
            rw [List.mem_cons]
            constructor
            · rintro ⟨a, b⟩; exact ⟨.inr a, b⟩
            · rintro ⟨a | a, b⟩
              · cases a; exact (hk rfl).elim
              · exact ⟨a, b⟩
    · rw [if_neg ho] at h
      rw [ih s hl' h]
      refine or_congr Iff.rfl (exists_congr fun m' => ?_)
      rw [List.mem_cons]
      constructor
      · rintro ⟨a, b⟩; exact ⟨.inr a, b⟩
      · rintro ⟨a | a, b, c⟩
        · cases a; exact (ho b).elim
        · exact ⟨a, b, c⟩

theorem isOption_spec (md : Dict String VarMeta) (k : String) :
    (isOption md k = .error .keyError ↔ md.get? k = none) ∧ ∀ m, md.get? k = some m → isOption md k = .ok m.option := by
  unfold isOption
  cases h : md.get? k <;> simp

example : ∃ i, Reads (exShape 2 3) "aircraft:x" i ∧ i.sbc = false ∧ 1 < i.size :=
  ⟨⟨"aircraft:x", false, 2⟩, ⟨_, List.mem_cons_self .., rfl, List.mem_singleton_self _, .inr ⟨by decide +kernel, rfl, .inl (by decide +kernel)⟩⟩,
    rfl, by decide⟩

example : ¬ ((∃ i, Reads (exShape 2 3) "aircraft:x" i) ∧ ∀ i, Reads (exShape 2 3) "aircraft:x" i → i.sbc = true) := by
  rw [← getsVal_false_iff]; decide +kernel

/-- A flag or an integer as default of a variable with several values fills an array of numbers of the size of an input that reads it:
zeros for `False`, ones for `True`. -/
theorem metaVal_scalar (ss : List Sub) (key : String) (m : VarMeta) (hm : m.multivalue = true)
    (h : ∃ i, Reads ss key i ∧ i.sbc = false ∧ 1 < i.size) :
    ∃ i, Reads ss key i ∧ i.sbc = false ∧ 1 < i.size ∧
      (∀ b, m.dflt = .bool b → metaVal ss key m = .ok (.arrF (List.replicate i.size (if b then 1 else 0)))) ∧
      (∀ z, m.dflt = .int z → metaVal ss key m = .ok (.arrF (List.replicate i.size (z : ℚ)))) ∧
      (∀ s, m.dflt = .str s → metaVal ss key m = .error .valueError) := by
  obtain ⟨i, hi, hb, hs⟩ := h
  have : (Dict.get? (scan (allLooked ss) ([], [], [])).2.2 key).isSome = true :=
    scan_shaped _ _ _ _ _ (.inr ⟨⟨key, i.sbc, i.size⟩, (mem_allLooked ss _ _ _).2 ⟨i, hi, rfl, rfl⟩, rfl, hb, hs⟩)
  obtain ⟨n, hn⟩ := Option.isSome_iff_exists.1 this
  rcases scan_shapes _ _ _ _ _ _ hn with h' | ⟨⟨_, _, _⟩, hj, rfl, rfl, rfl, hs⟩
  · cases h'
  · obtain ⟨j, hj2, hb, rfl⟩ := (mem_allLooked ss _ _ _).1 hj
    exact ⟨j, hj2, hb, hs, fun b hq => by simp only [metaVal, hm, hn, hq, fill], fun z hq => by simp only [metaVal, hm, hn, hq, fill],
      fun s hq => by simp only [metaVal, hm, hn, hq, fill]⟩

end Verif.GroupDefaults
