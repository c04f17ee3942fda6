import Verif.Model.PropMap
import Mathlib.Data.List.Nodup

/-! # Propeller map, pre-mission group and FLOPS mass groups -/

namespace Verif.PropMap

theorem machTypes_eq (keys : List String) :
    machTypes keys = (if "mach" ∈ keys then ["mach"] else []) ++
      (if "helical_mach" ∈ keys then ["helical_mach"] else []) := by
  unfold machTypes
  by_cases h1 : "mach" ∈ keys <;> by_cases h2 : "helical_mach" ∈ keys <;> simp [h1, h2]

/-- data handed over in memory never give a map,
aviary/subsystems/propulsion/propeller/propeller_map.py:55-103 -/
theorem memory_violated (keys : List String) : ∀ b, setup (.memory keys) ≠ .ok b := by
  intro b h
  unfold setup at h
  simp only at h
  split at h <;> cases h

/-- and with a Mach number in the data the error is the local that was never set -/
theorem memory_unbound (keys : List String) (h : "mach" ∈ keys ∨ "helical_mach" ∈ keys) :
    setup (.memory keys) = .error .unboundOutputs := by
  have hne : machTypes keys ≠ [] := by
    rw [machTypes_eq]
    rcases h with h | h <;> simp [h]
  simp only [setup, if_neg hne]

/-- a file gives a map exactly when it has a Mach number and a labelled output -/
theorem file_ok_iff (t : Table) :
    (∃ b, setup (.file t) = .ok b) ↔ ("mach" ∈ t.keys ∨ "helical_mach" ∈ t.keys) ∧ t.outputs ≠ [] := by
  by_cases h1 : "mach" ∈ t.keys <;> by_cases h2 : "helical_mach" ∈ t.keys <;>
    by_cases h3 : t.outputs = [] <;> simp [setup, machTypes_eq, interpInputs, h1, h2, h3]

theorem file_no_mach (t : Table) (h1 : "mach" ∉ t.keys) (h2 : "helical_mach" ∉ t.keys) :
    setup (.file t) = .error .noMach := by
  simp [setup, machTypes_eq, h1, h2]

/-- the inputs of the map are the columns not labelled as outputs -/
theorem inputs_iff (t : Table) (b : Built) (h : setup (.file t) = .ok b) (k : String) :
    k ∈ b.inputs ↔ k ∈ t.keys ∧ k ∉ t.outputs := by
  by_cases h3 : t.outputs = []
  · by_cases h1 : machTypes t.keys = [] <;> simp [setup, interpInputs, h1, h3] at h
  · by_cases h1 : machTypes t.keys = []
    · simp [setup, h1] at h
    · simp only [setup, if_neg h1, interpInputs, if_neg h3, Except.ok.injEq] at h
      subst h
      simp

/-- the helical Mach number is computed exactly when it is the only one -/
theorem helical_iff (t : Table) (b : Built) (h : setup (.file t) = .ok b) :
    b.helical = true ↔ "helical_mach" ∈ t.keys ∧ "mach" ∉ t.keys := by
  by_cases h3 : t.outputs = []
  · by_cases h1 : machTypes t.keys = [] <;> simp [setup, interpInputs, h1, h3] at h
  · by_cases h1 : machTypes t.keys = []
    · simp [setup, h1] at h
    · simp only [setup, if_neg h1, interpInputs, if_neg h3, Except.ok.injEq] at h
      subst h
      by_cases h4 : "mach" ∈ t.keys <;> by_cases h5 : "helical_mach" ∈ t.keys <;>
        simp [machTypes_eq, h4, h5]

/-- with one Mach number only, an interpolation over the helical one has it computed -/
theorem helical_fed_partial (t : Table) (b : Built) (h : setup (.file t) = .ok b)
    (h1 : "mach" ∉ t.keys) (h2 : "helical_mach" ∈ b.inputs) : b.helical = true :=
  (helical_iff t b h).mpr ⟨((inputs_iff t b h _).mp h2).1, h1⟩

/-- with both, the message says that Mach number is used, but the table is still interpolated over the
helical one and nothing computes it -/
theorem both_mach_violated (t : Table) (b : Built) (h : setup (.file t) = .ok b)
    (h1 : "mach" ∈ t.keys) (h2 : "helical_mach" ∈ t.keys) (h3 : "helical_mach" ∉ t.outputs) :
    "helical_mach" ∈ b.inputs ∧ b.helical = false := by
  refine ⟨(inputs_iff t b h _).mpr ⟨h2, h3⟩, ?_⟩
  by_contra hb
  exact ((helical_iff t b h).mp (by simpa using hb)).2 h1

example : setup (.file ⟨["mach", "helical_mach", "advance_ratio", "thrust_coefficient"], ["thrust_coefficient"]⟩) =
    .ok ⟨false, ["mach", "helical_mach", "advance_ratio"]⟩ := rfl
example : setup (.file ⟨["helical_mach", "advance_ratio", "thrust_coefficient"], ["thrust_coefficient"]⟩) =
    .ok ⟨true, ["helical_mach", "advance_ratio"]⟩ := rfl

/-! ### The pre-mission group -/

theorem addAll_spec (bs : List Builder) : ∀ done r : List Builder,
    addAll done bs = some r → r = done ++ bs.filter Builder.builds := by
  induction bs with
  | nil => intro done r h; simp [addAll] at h; simp [h]
  | cons b bs ih =>
    intro done r h
    by_cases hb : b.builds = true
    · by_cases hm : b.name ∈ done.map Builder.name
      · simp only [addAll, if_pos hb, if_pos hm] at h; cases h
      · simp only [addAll, if_pos hb, if_neg hm] at h
        rw [ih _ _ h, List.filter_cons_of_pos hb, List.append_assoc, List.singleton_append]
    · simp only [addAll, if_neg hb] at h
      rw [ih _ _ h, List.filter_cons_of_neg hb]

/-- the group is set up exactly when the systems built have different names -/
theorem addAll_iff (bs : List Builder) : ∀ done : List Builder, (done.map Builder.name).Nodup →
    ((addAll done bs).isSome ↔ ((done ++ bs.filter Builder.builds).map Builder.name).Nodup) := by
  induction bs with
  | nil => intro done hd; simpa [addAll] using hd
  | cons b bs ih =>
    intro done hd
    by_cases hb : b.builds = true
    · by_cases hm : b.name ∈ done.map Builder.name
      · simp only [addAll, if_pos hb, if_pos hm, Option.isSome_none, Bool.false_eq_true, false_iff,
          List.filter_cons_of_pos hb, List.map_append, List.map_cons]
        intro hn
        exact List.disjoint_of_nodup_append hn hm (List.mem_cons_self ..)
      · have hd' : ((done ++ [b]).map Builder.name).Nodup := by
          rw [List.map_append, List.nodup_append']
          exact ⟨hd, by simp, by simpa using hm⟩
        simp only [addAll, if_pos hb, if_neg hm, List.filter_cons_of_pos hb]
        rw [ih _ hd', List.append_assoc, List.singleton_append]
    · simp only [addAll, if_neg hb, List.filter_cons_of_neg hb]
      exact ih _ hd

/-- every system built is added, in order -/
theorem premission_order (bs : List Builder) (h : ((bs.filter Builder.builds).map Builder.name).Nodup) :
    addAll [] bs = some (bs.filter Builder.builds) := by
  have := (addAll_iff bs [] (by simp)).mpr (by simpa using h)
  obtain ⟨r, hr⟩ := Option.isSome_iff_exists.mp this
  rw [hr, addAll_spec bs [] r hr, List.nil_append]

theorem premission_clash (bs : List Builder) (h : ¬ ((bs.filter Builder.builds).map Builder.name).Nodup) :
    addAll [] bs = none := by
  by_contra hc
  exact h (by simpa using (addAll_iff bs [] (by simp)).mp (Option.isSome_iff_ne_none.mpr hc))

theorem overridesOf_mem (done : List Builder) (h : (done.map Builder.name).Nodup) (b : Builder) (hb : b ∈ done) :
    overridesOf done b.name = b.overrides.getD [] := by
  have hf : done.find? (fun d => d.name == b.name) = some b := by
    induction done with
    | nil => cases hb
    | cons d ds ih =>
      rw [List.map_cons, List.nodup_cons] at h
      rcases List.mem_cons.mp hb with e | e
      · subst e; simp
      · have hne : d.name ≠ b.name := fun e2 => h.1 (e2 ▸ List.mem_map_of_mem e)
        rw [List.find?_cons_of_neg (by simpa using hne)]
        exact ih h.2 e
  simp only [overridesOf, hf]

theorem overridesOf_absent (done : List Builder) (n : String) (h : n ∉ done.map Builder.name) :
    overridesOf done n = [] := by
  have hf : done.find? (fun d => d.name == n) = none := by
    rw [List.find?_eq_none]
    intro d hd e
    exact h (by simpa using ⟨d, hd, by simpa using e⟩)
  simp only [overridesOf, hf]

/-- with different names the overrides of exactly the systems built are collected, each once and in order;
a system without overrides does not stop the others -/
theorem overrides_collected (bs : List Builder) (h : (bs.map Builder.name).Nodup) :
    configure (bs.filter Builder.builds) bs = (bs.filter Builder.builds).flatMap fun b => b.overrides.getD [] := by
  have hd : ((bs.filter Builder.builds).map Builder.name).Nodup :=
    h.sublist ((List.filter_sublist).map _)
  have key : ∀ b ∈ bs, overridesOf (bs.filter Builder.builds) b.name =
      if b.builds = true then b.overrides.getD [] else [] := by
    intro b hb
    by_cases hbb : b.builds = true
    · rw [if_pos hbb]
      exact overridesOf_mem _ hd b (List.mem_filter.mpr ⟨hb, hbb⟩)
    · rw [if_neg hbb]
      refine overridesOf_absent _ _ fun hm => ?_
      obtain ⟨d, hd1, hd2⟩ := List.mem_map.mp hm
      obtain ⟨hd3, hd4⟩ := List.mem_filter.mp hd1
      have := List.inj_on_of_nodup_map h hd3 hb hd2
      exact hbb (this ▸ hd4)
  have gen : ∀ (l : List Builder) (f : String → List String),
      (∀ b ∈ l, f b.name = if b.builds = true then b.overrides.getD [] else []) →
      l.flatMap (fun b => f b.name) = (l.filter Builder.builds).flatMap fun b => b.overrides.getD [] := by
    intro l f
    induction l with
    | nil => intro _; rfl
    | cons b l ih =>
      intro hk
      rw [List.flatMap_cons, hk b (List.mem_cons_self ..), ih fun c hc => hk c (List.mem_cons_of_mem _ hc)]
      by_cases hb : b.builds = true
      · rw [if_pos hb, List.filter_cons_of_pos hb, List.flatMap_cons]
      · rw [if_neg hb, List.filter_cons_of_neg hb, List.nil_append]
  exact gen bs _ key

/-- a builder that builds nothing but shares its name makes the overrides be collected twice -/
theorem overrides_twice_violated (n : String) (os : List String) (rest : List Builder)
    (hr : ∀ r ∈ rest, r.builds = false ∧ r.overrides = none ∧ r.name ≠ n) :
    let bs := ⟨n, true, some os⟩ :: ⟨n, false, none⟩ :: rest
    addAll [] bs = some [⟨n, true, some os⟩] ∧ configure [⟨n, true, some os⟩] bs = os ++ os := by
  have hf : rest.filter Builder.builds = [] := by
    rw [List.filter_eq_nil_iff]; intro r h; simp [(hr r h).1]
  refine ⟨?_, ?_⟩
  · have := premission_order (⟨n, true, some os⟩ :: ⟨n, false, none⟩ :: rest) (by simp [hf])
    rw [this]; simp [hf]
  · have h0 : rest.flatMap (fun b => overridesOf [⟨n, true, some os⟩] b.name) = [] := by
      rw [List.flatMap_eq_nil_iff]
      intro r h
      exact overridesOf_absent _ _ (by simpa using (hr r h).2.2)
    have h1 : overridesOf [⟨n, true, some os⟩] n = os := by simp [overridesOf]
    simp only [configure, List.flatMap_cons, h0, h1, List.append_nil]

/-! ### The FLOPS mass groups -/

theorem mass_names_nodup (o : Opts) : ((massGroup o).map Prod.fst).Nodup := by
  obtain ⟨a, b, d⟩ := o
  cases a <;> cases b <;> cases d <;> decide

theorem wing_names_nodup (o : Opts) : ((wingGroup o).map Prod.fst).Nodup := by
  obtain ⟨a, b, d⟩ := o
  cases a <;> cases b <;> cases d <;> decide

/-- both methods size the same parts, except the base of the furnishings of the alternative one -/
theorem mass_names_alt (o : Opts) :
    ((massGroup { o with alt := true }).map Prod.fst).erase "furnishing_base" =
      (massGroup { o with alt := false }).map Prod.fst := by
  obtain ⟨a, b, d⟩ := o
  cases b <;> rfl

/-- the summation comes last -/
theorem mass_summation_last (o : Opts) : (massGroup o).getLast? = some ("mass_summation", "MassSummation") := by
  obtain ⟨a, b, d⟩ := o
  cases a <;> cases b <;> rfl

/-- with the standard method a blended wing body gets its own fuselage, wing and aft body -/
theorem bwb_fuselage_partial (o : Opts) (h : o.alt = false) :
    (("fuselage", "BWBFuselageMass") ∈ massGroup o ↔ o.bwb = true) ∧
      (("aftbody", "BWBAftBodyMass") ∈ wingGroup o ↔ o.bwb = true) := by
  obtain ⟨a, b, d⟩ := o
  simp only at h
  subst h
  cases b <;> cases d <;> decide

/-- with the alternative method it gets the wing and the aft body of a blended wing body but the fuselage
and the furnishings of a tube, aviary/subsystems/mass/flops_based/mass_premission.py:113-188 -/
theorem alt_bwb_violated (o : Opts) (h : o.alt = true) (hb : o.bwb = true) :
    ("fuselage", "AltFuselageMass") ∈ massGroup o ∧ ("fuselage", "BWBFuselageMass") ∉ massGroup o ∧
      ("furnishings", "BWBFurnishingsGroupMass") ∉ massGroup o ∧ ("aftbody", "BWBAftBodyMass") ∈ wingGroup o := by
  obtain ⟨a, b, d⟩ := o
  simp only at h hb
  subst h; subst hb
  cases d <;> decide

/-- the comment that a blended wing body never has a simple wing is not enforced,
aviary/subsystems/mass/flops_based/wing_group.py:57-64 -/
theorem simple_bwb_violated (o : Opts) (h : o.detailed = false) (hb : o.bwb = true) :
    ("wing_bending_material_factor", "SimpleWingBendingFact") ∈ wingGroup o ∧
      ("wing_misc", "BWBWingMiscMass") ∈ wingGroup o := by
  obtain ⟨a, b, d⟩ := o
  simp only at h hb
  subst h; subst hb
  cases a <;> decide

end Verif.PropMap
