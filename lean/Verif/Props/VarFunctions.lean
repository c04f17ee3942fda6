import Verif.Model.VarFunctions
import Verif.Lemmas.Dict

/-!
# C42 overrides, C43 trajectory parameters, C44 options
-/

namespace Verif

/-! ## C42 -/

/-- What happens to an output, stated without the loop. -/
def verdict (c : OverCfg) (v : OutVar) : Option Promo :=
  if v.abs ∈ c.codeOrigin then none
  else if v.prom ∈ c.external then some (.external v.prom)
  else if v.prom ∈ c.inputs then some (.aircraft v.prom)
  else some (.plain v.prom)

/-- User data and not replaced by an external subsystem. -/
def isUser (c : OverCfg) (v : OutVar) : Bool :=
  nameFilter v.abs && decide (v.abs ∉ c.codeOrigin) && decide (v.prom ∉ c.external) && decide (v.prom ∈ c.inputs)

/-- Every output with `aircraft:` or `mission:` anywhere in its absolute name is considered, and no other. -/
theorem nameFilter_iff (n : String) : nameFilter n = true ↔
    ∃ stem ∈ ["aircraft:", "mission:"], ∃ p s, n.toList = p ++ stem.toList ++ s := by
  unfold nameFilter
  rw [Bool.or_eq_true]
  constructor
  · rintro (h | h)
    · obtain ⟨a, b, h⟩ := of_decide_eq_true h
      exact ⟨_, by simp, a, b, h.symm⟩
    · obtain ⟨a, b, h⟩ := of_decide_eq_true h
      exact ⟨"mission:", by simp, a, b, h.symm⟩
  · rintro ⟨stem, hs, a, b, h⟩
    rcases List.mem_cons.1 hs with rfl | hs
    · exact .inl (decide_eq_true ⟨a, b, h.symm⟩)
    · rw [List.mem_singleton] at hs
      subst hs
      exact .inr (decide_eq_true ⟨a, b, h.symm⟩)

theorem overFold_spec (c : OverCfg) (l : List OutVar) (s : OverState) :
    let r := l.foldl (overStep c) s
    r.promos = s.promos ++ l.filterMap (verdict c) ∧
    r.overridden = s.overridden ++ (l.filter (fun v => decide (v.abs ∉ c.codeOrigin) &&
      decide (v.prom ∉ c.external) && decide (v.prom ∈ c.inputs))).map OutVar.prom ∧
    r.defaults = s.defaults ++ (l.filter (fun v => decide (v.abs ∉ c.codeOrigin) &&
      decide (v.prom ∉ c.external) && decide (v.prom ∈ c.inputs) && decide (v.prom ∈ c.allInputs))).map OutVar.prom ∧
    r.extOverridden = s.extOverridden ++ (l.filter (fun v => decide (v.abs ∉ c.codeOrigin) &&
      decide (v.prom ∈ c.external))).map OutVar.prom := by
  induction l generalizing s with
  | nil => simp
  | cons v l ih =>
    simp only [List.foldl_cons]
    have h := ih (overStep c s v)
    refine ⟨?_, ?_, ?_, ?_⟩
    · rw [h.1]; by_cases h1 : v.abs ∈ c.codeOrigin <;> by_cases h2 : v.prom ∈ c.external <;>
        by_cases h3 : v.prom ∈ c.inputs <;> simp [overStep, verdict, h1, h2, h3]
    · rw [h.2.1]; by_cases h1 : v.abs ∈ c.codeOrigin <;> by_cases h2 : v.prom ∈ c.external <;>
        by_cases h3 : v.prom ∈ c.inputs <;> simp [overStep, h1, h2, h3]
    · rw [h.2.2.1]; by_cases h1 : v.abs ∈ c.codeOrigin <;> by_cases h2 : v.prom ∈ c.external <;>
        by_cases h3 : v.prom ∈ c.inputs <;> by_cases h4 : v.prom ∈ c.allInputs <;>
        simp [overStep, h1, h2, h3, h4]
    · rw [h.2.2.2]; by_cases h1 : v.abs ∈ c.codeOrigin <;> by_cases h2 : v.prom ∈ c.external <;>
        by_cases h3 : v.prom ∈ c.inputs <;> simp [overStep, h1, h2, h3]

theorem overAll_spec (c : OverCfg) (comps : List (List OutVar)) (s : OverState) :
    let r := overAll c s comps
    r.2 = comps.map (fun o => (o.filter (fun v => nameFilter v.abs)).filterMap (verdict c)) ∧
    r.1.overridden = s.overridden ++ (comps.flatten.filter (isUser c)).map OutVar.prom ∧
    r.1.defaults = s.defaults ++
      ((comps.flatten.filter (isUser c)).map OutVar.prom).filter (fun n => decide (n ∈ c.allInputs)) := by
  induction comps generalizing s with
  | nil => simp [overAll]
  | cons o os ih =>
    have hf := overFold_spec c (o.filter (fun v => nameFilter v.abs)) { s with promos := [] }
    have h := ih (overComp c s o)
    simp only [overAll]
    refine ⟨?_, ?_, ?_⟩
    · rw [h.1]; simp [overComp, hf.1]
    · rw [h.2.1]; simp only [overComp, hf.2.1]
      rw [List.filter_filter, List.flatten_cons, List.filter_append, List.map_append, List.append_assoc]
      congr 3
      apply List.filter_congr
      intro v _
      simp only [isUser]; cases nameFilter v.abs <;> simp
    · rw [h.2.2]; simp only [overComp, hf.2.2.1]
      rw [List.filter_filter, List.flatten_cons, List.filter_append, List.map_append, List.filter_append,
        List.append_assoc]
      congr 2
      rw [List.filter_map, List.filter_filter]
      congr 1
      apply List.filter_congr
      intro v _
      simp only [isUser, Function.comp]; cases nameFilter v.abs <;> simp [Bool.and_comm]

/-- **C42 (what is promoted).** For every set of components: the promotions of a component are, in order, those of its
aircraft/mission outputs that are not owned by the other legacy code; an output also computed by an external subsystem
is renamed as external, one given by the user as aircraft data, and only the rest is promoted. -/
theorem override_promotions (c : OverCfg) (comps : List (List OutVar)) :
    (overrideVars c comps).2 =
      comps.map (fun o => (o.filter (fun v => nameFilter v.abs)).filterMap (verdict c)) :=
  (overAll_spec c comps {}).1

/-- **C42 (user data wins).** An output is promoted under its own name only if neither the user nor an external
subsystem provides it; every aircraft/mission output provided by neither and not owned by the other code is promoted. -/
theorem override_plain_iff (c : OverCfg) (comps : List (List OutVar)) (n : String) :
    (∃ p ∈ (overrideVars c comps).2, Promo.plain n ∈ p) ↔
      n ∉ c.inputs ∧ n ∉ c.external ∧
      ∃ o ∈ comps, ∃ v ∈ o, v.prom = n ∧ nameFilter v.abs = true ∧ v.abs ∉ c.codeOrigin := by
  rw [override_promotions]
  constructor
  · rintro ⟨p, hp, hn⟩
    obtain ⟨o, ho, rfl⟩ := List.mem_map.1 hp
    obtain ⟨v, hv, hvd⟩ := List.mem_filterMap.1 hn
    obtain ⟨hv1, hv2⟩ := List.mem_filter.1 hv
    unfold verdict at hvd
    split at hvd
    · cases hvd
    · split at hvd
      · simp at hvd
      · split at hvd
        · simp at hvd
        · simp only [Option.some.injEq, Promo.plain.injEq] at hvd; subst hvd
          exact ⟨by assumption, by assumption, o, ho, v, hv1, rfl, hv2, by assumption⟩
  · rintro ⟨h1, h2, o, ho, v, hv, rfl, hf, hc⟩
    refine ⟨_, List.mem_map.2 ⟨o, ho, rfl⟩, List.mem_filterMap.2 ⟨v, List.mem_filter.2 ⟨hv, hf⟩, ?_⟩⟩
    simp [verdict, h1, h2, hc]

/-- **C42 (report and defaults).** The returned list names exactly the outputs replaced by user data, in component
order; the user's value is set as input default for exactly those that some system reads. -/
theorem override_reported (c : OverCfg) (comps : List (List OutVar)) :
    (overrideVars c comps).1.overridden = (comps.flatten.filter (isUser c)).map OutVar.prom ∧
    (overrideVars c comps).1.defaults =
      (overrideVars c comps).1.overridden.filter (fun n => decide (n ∈ c.allInputs)) := by
  have h := overAll_spec c comps {}
  constructor
  · simpa [overrideVars] using h.2.1
  · have h2 := h.2.2
    have h1 := h.2.1
    simp only [List.nil_append] at h1 h2
    simp only [overrideVars, h1, h2]

example : overrideVars ⟨["g.x"], ["aircraft:e"], ["aircraft:u"], ["aircraft:u"]⟩
    [[⟨"c.aircraft:u", "aircraft:u"⟩, ⟨"c.aircraft:e", "aircraft:e"⟩, ⟨"c.aircraft:p", "aircraft:p"⟩, ⟨"c.tmp", "tmp"⟩]] =
    (⟨["aircraft:u"], ["aircraft:e"], ["aircraft:u"], [.aircraft "aircraft:u", .external "aircraft:e", .plain "aircraft:p"]⟩,
     [[.aircraft "aircraft:u", .external "aircraft:e", .plain "aircraft:p"]]) := by decide +kernel

theorem promoteVars_fst (cs : List SubSys) :
    (promoteVars cs).1 = (cs.filter (fun c => c.name ≠ "core_subsystems")).flatMap SubSys.outs := by
  induction cs with
  | nil => rfl
  | cons c cs ih => by_cases h : c.name = "core_subsystems" <;> simp [promoteVars, h, ih]

theorem promoteVars_snd (cs : List SubSys) :
    (promoteVars cs).2 = (cs.filter (fun c => c.name ≠ "core_subsystems")).map
      (fun c => (c.name, promoteStems c.outs, promoteStems c.ins)) := by
  induction cs with
  | nil => rfl
  | cons c cs ih => by_cases h : c.name = "core_subsystems" <;> simp [promoteVars, h, ih]

/-- **C42 (external promotion).** A variable of an external subsystem is covered by the promoted patterns exactly when
it belongs to the mission, aircraft or dynamic hierarchy. -/
theorem promoteStems_covers (names : List String) (n : String) (hn : n ∈ names) :
    (∃ s ∈ promoteStems names, startsWith s n = true) ↔
      startsWith "mission:" n = true ∨ startsWith "aircraft:" n = true ∨ startsWith "dynamic:" n = true := by
  simp only [promoteStems, stems, List.mem_filter, List.any_eq_true]
  constructor
  · rintro ⟨s, ⟨hs, _⟩, h⟩
    simp only [List.mem_cons, List.not_mem_nil, or_false] at hs
    rcases hs with rfl | rfl | rfl <;> simp [h]
  · rintro (h | h | h)
    · exact ⟨_, ⟨by simp, n, hn, h⟩, h⟩
    · exact ⟨_, ⟨by simp, n, hn, h⟩, h⟩
    · exact ⟨_, ⟨by simp, n, hn, h⟩, h⟩

/-- **C42 (one source).** When the core subsystems are configured with the outputs collected from the external ones
(aviary/core/static_group.py:22-34), no variable is promoted both by a core component and by an external subsystem. -/
theorem static_group_one_source (subs : List SubSys) (c : OverCfg) (hc : c.external = (promoteVars subs).1)
    (comps : List (List OutVar)) (n : String) (sub : SubSys) (hs : sub ∈ subs) (hname : sub.name ≠ "core_subsystems")
    (hn : n ∈ sub.outs) : ¬ ∃ p ∈ (overrideVars c comps).2, Promo.plain n ∈ p := by
  rw [override_plain_iff]
  rintro ⟨_, h, _⟩
  apply h
  rw [hc, promoteVars_fst, List.mem_flatMap]
  exact ⟨sub, List.mem_filter.2 ⟨hs, by simpa using hname⟩, hn⟩

example : (promoteVars [⟨"core_subsystems", [], ["aircraft:a"]⟩, ⟨"ext", ["mission:m", "x"], ["aircraft:e", "y"]⟩]) =
    (["aircraft:e", "y"], [("ext", ["aircraft:"], ["mission:"])]) := by decide +kernel

/-! ## C43 -/

theorem collectPhase_get {K : Type} (phase : String) (ps : Dict String K) (d : Dict String (List String))
    (hp : ps.keys.Nodup) (k : String) :
    (collectPhase phase ps d).get? k =
      if k ∈ ps.keys then some ((d.get? k).getD [] ++ [phase]) else d.get? k := by
  induction ps generalizing d with
  | nil => simp [collectPhase, Dict.keys]
  | cons p ps ih =>
    obtain ⟨a, b⟩ := p
    simp only [Dict.keys, List.map_cons, List.nodup_cons] at hp
    simp only [collectPhase]
    rw [ih _ hp.2, Dict.get?_set]
    by_cases h : a = k
    · subst h
      have h2 : a ∉ Dict.keys ps := hp.1
      have h3 : a ∈ Dict.keys ((a, b) :: ps) := List.mem_cons_self ..
      rw [if_neg h2, if_pos h3, if_pos rfl]
    · have h' : k ∈ Dict.keys ((a, b) :: ps) ↔ k ∈ Dict.keys ps := by
        constructor
        · intro e
          rcases List.mem_cons.1 e with e | e
          · exact absurd e.symm h
          · exact e
        · exact List.mem_cons_of_mem _
      simp only [h, h', if_false]

theorem collectPhase_nodup {K : Type} (phase : String) (ps : Dict String K) (d : Dict String (List String))
    (hd : d.keys.Nodup) : (collectPhase phase ps d).keys.Nodup := by
  induction ps generalizing d with
  | nil => exact hd
  | cons p ps ih => exact ih _ (Dict.nodup_set _ _ _ hd)

theorem collectFold_get {K : Type} (ext : Dict String (Dict String K)) (hin : ∀ p ∈ ext, (Dict.keys p.2).Nodup)
    (d : Dict String (List String)) (k : String) :
    (ext.foldl (fun d p => collectPhase p.1 p.2 d) d).get? k =
      match ext.filter (fun p => decide (k ∈ Dict.keys p.2)) with
      | [] => d.get? k
      | q :: qs => some ((d.get? k).getD [] ++ (q :: qs).map Prod.fst) := by
  induction ext generalizing d with
  | nil => simp
  | cons p ext ih =>
    simp only [List.foldl_cons]
    rw [ih (fun q hq => hin q (List.mem_cons_of_mem _ hq)), collectPhase_get _ _ _ (hin p (List.mem_cons_self ..))]
    by_cases h : k ∈ Dict.keys p.2
    · simp only [h, if_true, List.filter_cons, decide_true]
      cases hf : ext.filter (fun p => decide (k ∈ Dict.keys p.2)) <;> simp
    · simp only [h, if_false, List.filter_cons, decide_false]
      cases hf : ext.filter (fun p => decide (k ∈ Dict.keys p.2)) <;> simp

theorem collectFold_nodup {K : Type} (ext : Dict String (Dict String K)) (d : Dict String (List String))
    (hd : d.keys.Nodup) : (ext.foldl (fun d p => collectPhase p.1 p.2 d) d).keys.Nodup := by
  induction ext generalizing d with
  | nil => exact hd
  | cons p ext ih => exact ih _ (collectPhase_nodup _ _ _ hd)

/-- The phases whose parameter dictionary has the key. -/
def phasesWith {K : Type} (ext : Dict String (Dict String K)) (k : String) : List String :=
  (ext.filter (fun p => decide (k ∈ Dict.keys p.2))).map Prod.fst

theorem collectParams_get {K : Type} (ext : Dict String (Dict String K)) (hin : ∀ p ∈ ext, (Dict.keys p.2).Nodup)
    (k : String) : (collectParams ext).get? k = if phasesWith ext k = [] then none else some (phasesWith ext k) := by
  rw [collectParams, collectFold_get ext hin]
  unfold phasesWith
  cases hf : ext.filter (fun p => decide (k ∈ Dict.keys p.2)) <;> simp

theorem addExternal_spec {K V : Type} (ext : Dict String (Dict String K)) (l : Dict String (List String))
    (phases : List String) (r : List (AddParam K V) × List String) (h : addExternal ext l phases = .ok r) :
    r.1.map (fun c => (c.key, c.targets)) = l ∧
    r.2 = (l.map Prod.snd).getLast?.getD phases ∧
    (∀ c ∈ r.1, ∃ k kw t, c = .ext k kw t ∧ ∃ p0 ps, t = p0 :: ps ∧ (ext.get? p0).bind (Dict.get? · k) = some kw) := by
  induction l generalizing phases r with
  | nil => simp only [addExternal, Except.ok.injEq] at h; subst h; simp
  | cons p l ih =>
    obtain ⟨key, ph⟩ := p
    cases ph with
    | nil => simp [addExternal] at h
    | cons p0 ps =>
      simp only [addExternal] at h
      cases hk : (ext.get? p0).bind (Dict.get? · key) with
      | none => simp [hk] at h
      | some kw =>
        simp only [hk] at h
        cases hr : addExternal (V := V) ext l (p0 :: ps) with
        | error e => simp [hr, bind, Except.bind] at h
        | ok r' =>
          simp only [hr, bind, Except.bind, Except.ok.injEq] at h
          subst h
          obtain ⟨h1, h2, h3⟩ := ih _ _ hr
          refine ⟨by rw [List.map_cons, h1]; rfl, ?_, ?_⟩
          · rw [h2]; cases hl : l.map Prod.snd with
            | nil => simp [hl]
            | cons a b => simp [hl, List.getLast?_cons_cons, List.getLast?_cons]
          · intro c hc
            rcases List.mem_cons.1 hc with rfl | hc
            · exact ⟨key, kw, _, rfl, p0, ps, rfl, hk⟩
            · exact h3 c hc

theorem addExternal_ok {K V : Type} (ext : Dict String (Dict String K)) (l : Dict String (List String))
    (hl : ∀ p ∈ l, ∃ p0 ps, p.2 = p0 :: ps ∧ ((ext.get? p0).bind (Dict.get? · p.1)).isSome) (phases : List String) :
    ∃ r, addExternal (V := V) ext l phases = .ok r := by
  induction l generalizing phases with
  | nil => exact ⟨_, rfl⟩
  | cons p l ih =>
    obtain ⟨p0, ps, hp, hs⟩ := hl p (List.mem_cons_self ..)
    obtain ⟨key, ph⟩ := p
    simp only at hp hs; subst hp
    obtain ⟨kw, hk⟩ := Option.isSome_iff_exists.1 hs
    obtain ⟨r, hr⟩ := ih (fun q hq => hl q (List.mem_cons_of_mem _ hq)) (p0 :: ps)
    exact ⟨_, by simp only [addExternal, hk, hr, bind, Except.bind]; rfl⟩

/-- Well formed argument: dictionaries have distinct keys. -/
structure ExtOk {K : Type} (ext : Dict String (Dict String K)) : Prop where
  outer : (Dict.keys ext).Nodup
  inner : ∀ p ∈ ext, (Dict.keys p.2).Nodup

theorem ext_get {K : Type} {ext : Dict String (Dict String K)} (hx : ExtOk ext) {p : String × Dict String K} (hp : p ∈ ext) :
    ext.get? p.1 = some p.2 := Dict.get?_of_mem ext hx.outer hp

/-- **C43 (external parameters).** For every well formed collection of phase parameters: the external part never
raises; it makes exactly one call per parameter, targeting exactly the phases that asked for it, in phase order, with
the keyword arguments of the first of them. -/
theorem setup_external {K V : Type} (ext : Dict String (Dict String K)) (hx : ExtOk ext) (phases : List String) :
    ∃ calls last, addExternal (V := V) ext (collectParams ext) phases = .ok (calls, last) ∧
      (calls.map AddParam.key).Nodup ∧
      (∀ k, k ∈ calls.map AddParam.key ↔ ∃ p ∈ ext, k ∈ Dict.keys p.2) ∧
      (∀ c ∈ calls, c.targets = phasesWith ext c.key ∧
        ∃ p ∈ ext, ∃ kw, p.1 ∈ c.targets.head? ∧ p.2.get? c.key = some kw ∧ c = .ext c.key kw c.targets) ∧
      last = (calls.map AddParam.targets).getLast?.getD phases := by
  have hnod : (Dict.keys (collectParams ext)).Nodup := collectFold_nodup ext [] (by simp [Dict.keys])
  have hget : ∀ p ∈ collectParams ext, p.2 = phasesWith ext p.1 ∧ phasesWith ext p.1 ≠ [] := by
    intro p hp
    have h1 := Dict.get?_of_mem _ hnod (k := p.1) (v := p.2) hp
    rw [collectParams_get ext hx.inner] at h1
    split at h1
    · cases h1
    · rename_i hne
      exact ⟨(Option.some.inj h1).symm, hne⟩
  have hfirst : ∀ k p0 ps, phasesWith ext k = p0 :: ps → ∃ p ∈ ext, p.1 = p0 ∧ ∃ kw, p.2.get? k = some kw ∧
      (ext.get? p0).bind (Dict.get? · k) = some kw := by
    intro k p0 ps h
    have hm : p0 ∈ phasesWith ext k := by rw [h]; simp
    obtain ⟨p, hp, rfl⟩ := List.mem_map.1 hm
    obtain ⟨hp, hk⟩ := List.mem_filter.1 hp
    have hk' : k ∈ Dict.keys p.2 := by simpa using hk
    obtain ⟨kw, hkw⟩ := Option.isSome_iff_exists.1 ((Dict.get?_isSome_iff p.2 k).2 hk')
    exact ⟨p, hp, rfl, kw, hkw, by rw [ext_get hx hp]; exact hkw⟩
  obtain ⟨⟨calls, last⟩, hr⟩ := addExternal_ok (V := V) ext (collectParams ext) (by
    intro p hp
    obtain ⟨h1, h2⟩ := hget p hp
    obtain ⟨p0, ps, h3⟩ := List.exists_cons_of_ne_nil h2
    obtain ⟨_, _, _, kw, _, h4⟩ := hfirst p.1 p0 ps h3
    exact ⟨p0, ps, h1.trans h3, by rw [h4]; rfl⟩) phases
  obtain ⟨s1, s2, s3⟩ := addExternal_spec ext _ phases _ hr
  simp only at s1 s2 s3
  have hkeys : calls.map AddParam.key = Dict.keys (collectParams ext) := by
    rw [← s1]; simp [Dict.keys, Function.comp_def]
  refine ⟨calls, last, hr, by rw [hkeys]; exact hnod, ?_, ?_, ?_⟩
  · intro k
    rw [hkeys, ← Dict.get?_isSome_iff, collectParams_get ext hx.inner]
    constructor
    · intro h
      split at h
      · simp at h
      · rename_i hne
        obtain ⟨p0, hp0⟩ := List.exists_mem_of_ne_nil _ hne
        obtain ⟨p, hp, _⟩ := List.mem_map.1 hp0
        obtain ⟨hp, hk⟩ := List.mem_filter.1 hp
        exact ⟨p, hp, by simpa using hk⟩
    · rintro ⟨p, hp, hk⟩
      have : p.1 ∈ phasesWith ext k := List.mem_map.2 ⟨p, List.mem_filter.2 ⟨hp, by simpa using hk⟩, rfl⟩
      rw [if_neg (List.ne_nil_of_mem this)]; rfl
  · intro c hc
    have hmem : (c.key, c.targets) ∈ collectParams ext := by
      rw [← s1]; exact List.mem_map.2 ⟨c, hc, rfl⟩
    have ht := (hget _ hmem).1
    simp only at ht
    refine ⟨ht, ?_⟩
    obtain ⟨k, kw, t, rfl, p0, ps, rfl, hb⟩ := s3 c hc
    simp only [AddParam.key, AddParam.targets] at ht ⊢
    obtain ⟨p, hp, hp0, kw', hkw', hb'⟩ := hfirst k p0 ps ht.symm
    rw [hb] at hb'
    cases hb'
    exact ⟨p, hp, kw, by simp [hp0], hkw', rfl⟩
  · rw [s2]
    congr 2
    rw [← s1]; simp [Function.comp_def]

theorem addCore_spec {K V : Type} (metas : Dict String PMeta) (valOf : String → V) (done phases : List String)
    (vars : List String) (r : List (AddParam K V)) (h : addCore metas valOf done phases vars = .ok r) :
    r = (vars.filter (fun k => decide (k ∉ done) && !((metas.get? k).map PMeta.option).getD true
      && decide (':' ∈ k.toList))).map
        (fun k => .core k (valOf k) (((metas.get? k).map PMeta.units).getD none) phases) := by
  induction vars generalizing r with
  | nil => simp only [addCore, Except.ok.injEq] at h; subst h; rfl
  | cons k ks ih =>
    simp only [addCore] at h
    by_cases hd : k ∈ done
    · simp only [hd, if_true] at h
      rw [ih _ h]; simp [hd]
    · simp only [hd, if_false] at h
      cases hm : metas.get? k with
      | none => simp [hm] at h
      | some m =>
        simp only [hm] at h
        cases hr : addCore (K := K) metas valOf done phases ks with
        | error e => simp [hr, bind, Except.bind] at h
        | ok r' =>
          simp only [hr, bind, Except.bind] at h
          rw [ih _ hr] at h
          by_cases ho : m.option = true
          · simp only [ho, if_true, Except.ok.injEq] at h
            subst h; simp [hd, hm, ho]
          · by_cases hc : ':' ∈ k.toList
            · simp only [ho, hc, not_true_eq_false, if_false, Bool.false_eq_true, Except.ok.injEq] at h
              subst h; simp [hd, hm, ho, hc]
            · simp only [ho, hc, not_false_eq_true, if_true, if_false, Bool.false_eq_true, Except.ok.injEq] at h
              subst h; simp [hd, hm, ho, hc]

/-- **C43 (core parameters without external ones).** Without external parameters exactly the requested hierarchy
variables that are not options become parameters, in sorted order, and each targets every phase. -/
theorem setup_core_partial {K V : Type} (metas : Dict String PMeta) (valOf : String → V) (phases vars : List String)
    (r : List (AddParam K V)) (h : setupParams metas valOf phases [] vars = .ok r) :
    r = ((vars.insertionSort (fun a b => a ≤ b)).filter (fun k =>
        !((metas.get? k).map PMeta.option).getD true && decide (':' ∈ k.toList))).map
        (fun k => .core k (valOf k) (((metas.get? k).map PMeta.units).getD none) phases) := by
  simp only [setupParams, collectParams, List.foldl_nil, addExternal, bind, Except.bind, List.map_nil] at h
  cases hc : addCore (K := K) metas valOf [] phases (vars.insertionSort (fun a b => a ≤ b)) with
  | error e => simp [hc] at h
  | ok r' =>
    simp only [hc, List.nil_append, Except.ok.injEq] at h
    subst h
    rw [addCore_spec _ _ _ _ _ _ hc]; simp

/-- **C43 (general law).** In every successful run each core parameter is added once per request, never repeats an
external one, and targets the phases of the *last external parameter* whenever there is one. -/
theorem setup_core_targets {K V : Type} (metas : Dict String PMeta) (valOf : String → V) (phases vars : List String)
    (ext : Dict String (Dict String K)) (hx : ExtOk ext) (r : List (AddParam K V))
    (h : setupParams metas valOf phases ext vars = .ok r) :
    ∃ calls core, r = calls ++ core ∧ addExternal (V := V) ext (collectParams ext) phases =
        .ok (calls, (calls.map AddParam.targets).getLast?.getD phases) ∧
      (∀ c ∈ core, c.key ∈ vars ∧ c.key ∉ calls.map AddParam.key ∧
        c.targets = (calls.map AddParam.targets).getLast?.getD phases) ∧
      (∀ k ∈ vars, k ∉ calls.map AddParam.key → (metas.get? k).map PMeta.option = some false → ':' ∈ k.toList →
        k ∈ core.map AddParam.key) := by
  obtain ⟨calls, last, h1, _, _, _, h5⟩ := setup_external (V := V) ext hx phases
  simp only [setupParams, h1, bind, Except.bind] at h
  cases hc : addCore (K := K) metas valOf (calls.map AddParam.key) last (vars.insertionSort (fun a b => a ≤ b)) with
  | error e => simp [hc] at h
  | ok core =>
    simp only [hc, Except.ok.injEq] at h
    have hs := addCore_spec _ _ _ _ _ _ hc
    refine ⟨calls, core, h.symm, by rw [h1, h5], ?_, ?_⟩
    · intro c hcm
      rw [hs] at hcm
      obtain ⟨k, hk, rfl⟩ := List.mem_map.1 hcm
      obtain ⟨hk1, hk2⟩ := List.mem_filter.1 hk
      simp only [Bool.and_eq_true, decide_eq_true_eq] at hk2
      exact ⟨(List.mem_insertionSort _).1 hk1, hk2.1.1, by simp [AddParam.targets, h5]⟩
    · intro k hk hnk ho hcol
      rw [hs]
      refine List.mem_map.2 ⟨.core k (valOf k) _ last, List.mem_map.2 ⟨k, List.mem_filter.2 ⟨(List.mem_insertionSort _).2 hk, ?_⟩, rfl⟩, rfl⟩
      simp [hnk, ho, hcol]

/-- **C43 violated (targets).** With one external parameter in `cruise` only, the core variable reaches `cruise` only,
although all three phases were requested: the loop variable overwrites the argument `phases`. -/
theorem setup_core_targets_violated :
    setupParams (K := ℕ) (V := ℕ) [("aircraft:a", ⟨false, none⟩)] (fun _ => 0) ["climb", "cruise", "descent"]
      [("climb", []), ("cruise", [("ext:p", 7)]), ("descent", [])] ["aircraft:a"] =
      .ok [.ext "ext:p" 7 ["cruise"], .core "aircraft:a" 0 none ["cruise"]] := by decide +kernel

example : ExtOk [("climb", []), ("cruise", [("ext:p", 7)]), ("descent", [])] := by
  constructor <;> simp [Dict.keys]

/-! ## C44 -/

theorem extractOptions_get {V : Type} (inputs : Dict String (V × String)) (metas : Dict String PMeta)
    (hm : metas.keys.Nodup) (o : Dict String (OptVal V)) (k : String) :
    (extractOptions inputs metas o).get? k =
      match metas.get? k, inputs.get? k with
      | some m, some (v, u) =>
        if m.option then
          (if m.units = some "unitless" ∨ m.units = none then some (.plain v) else some (.withUnits v u))
        else o.get? k
      | _, _ => o.get? k := by
  induction metas generalizing o with
  | nil => simp [extractOptions]
  | cons p ms ih =>
    obtain ⟨a, m⟩ := p
    simp only [Dict.keys, List.map_cons, List.nodup_cons] at hm
    have hnone : ∀ k, a = k → Dict.get? ms k = none := by
      rintro k rfl; exact (Dict.get?_eq_none_iff _ _).2 hm.1
    simp only [extractOptions]
    have hcons : ∀ k, a ≠ k → Dict.get? ((a, m) :: ms) k = Dict.get? ms k := by
      intro k h; simp [Dict.get?, h]
    have hhead : Dict.get? ((a, m) :: ms) a = some m := by simp [Dict.get?]
    cases hi : inputs.get? a with
    | none =>
      by_cases h : a = k
      · subst h; rw [hhead, hi, ih hm.2, hnone a rfl]
      · rw [hcons k h]; exact ih hm.2 o
    | some vu =>
      obtain ⟨v, u⟩ := vu
      by_cases ho : m.option = true
      · by_cases hu : m.units = some "unitless" ∨ m.units = none
        · simp only [ho, not_true_eq_false, if_false, hu, if_true]
          rw [ih hm.2]
          by_cases h : a = k
          · subst h; rw [hhead, hi, hnone a rfl]; simp [ho, hu]
          · rw [hcons k h, Dict.get?_set_ne _ _ h]
        · simp only [ho, not_true_eq_false, if_false, hu]
          rw [ih hm.2]
          by_cases h : a = k
          · subst h; rw [hhead, hi, hnone a rfl]; simp [ho, hu]
          · rw [hcons k h, Dict.get?_set_ne _ _ h]
      · simp only [ho, not_false_eq_true, if_true, Bool.false_eq_true]
        rw [ih hm.2]
        by_cases h : a = k
        · subst h; rw [hhead, hi, hnone a rfl]; simp [ho]
        · rw [hcons k h]

/-- **C44 (options).** For all inputs and metadata: exactly the variables that are set and flagged as options are
extracted, with the stored value; the stored units are attached exactly when the metadata has units. -/
theorem extractOptions_spec {V : Type} (inputs : Dict String (V × String)) (metas : Dict String PMeta)
    (hm : metas.keys.Nodup) (k : String) (x : OptVal V) :
    (extractOptions inputs metas []).get? k = some x ↔
      ∃ m v u, metas.get? k = some m ∧ inputs.get? k = some (v, u) ∧ m.option = true ∧
        x = (if m.units = some "unitless" ∨ m.units = none then .plain v else .withUnits v u) := by
  rw [extractOptions_get inputs metas hm]
  cases h1 : metas.get? k with
  | none => simp
  | some m =>
    cases h2 : inputs.get? k with
    | none => simp
    | some vu =>
      obtain ⟨v, u⟩ := vu
      by_cases ho : m.option = true
      · simp only [ho, if_true]
        constructor
        · intro h
          refine ⟨m, v, u, rfl, rfl, ho, ?_⟩
          split at h <;> rename_i hu <;> cases h
          · rw [if_pos hu]
          · rw [if_neg hu]
        · rintro ⟨m', v', u', hm', hv', _, rfl⟩
          cases hm'; cases hv'
          split <;> rfl
      · simp [ho]

example : extractOptions [("b", (1, "ft")), ("c", (2, "unitless")), ("zz", (3, "m"))]
    [("a", ⟨true, some "m"⟩), ("b", ⟨true, some "m"⟩), ("c", ⟨true, some "unitless"⟩), ("d", ⟨false, none⟩)] [] =
    [("b", .withUnits 1 "ft"), ("c", .plain 2)] := by decide +kernel

theorem engineOpts_get {V : Type} (inputs : Dict String (List V)) (idx : ℕ) (keys : List String)
    (r : Dict String V) (h : engineOpts inputs idx keys = .ok r) (k : String) :
    r.get? k = if k ∈ keys then (inputs.get? k).bind (fun vs => vs[idx]?) else none := by
  induction keys generalizing r with
  | nil => simp only [engineOpts, Except.ok.injEq] at h; subst h; simp
  | cons a ks ih =>
    simp only [engineOpts] at h
    cases hr : engineOpts inputs idx ks with
    | error e => simp [hr, bind, Except.bind] at h
    | ok r' =>
      simp only [hr, bind, Except.bind] at h
      have ih' := ih _ hr
      cases hi : inputs.get? a with
      | none =>
        simp only [hi, Except.ok.injEq] at h; subst h
        rw [ih']
        by_cases e : k = a
        · subst e; simp [hi]
        · simp [e]
      | some vs =>
        simp only [hi] at h
        cases hv : vs[idx]? with
        | none => simp [hv] at h
        | some v =>
          simp only [hv, Except.ok.injEq] at h; subst h
          by_cases e : a = k
          · subst e; simp [Dict.get?, hi, hv]
          · have e' : ¬ k = a := fun x => e x.symm
            simp [Dict.get?, e, e', ih']

theorem engineOpts_ok {V : Type} (inputs : Dict String (List V)) (idx : ℕ) (keys : List String) :
    (∃ r, engineOpts inputs idx keys = .ok r) ↔ ∀ k ∈ keys, ∀ vs, inputs.get? k = some vs → idx < vs.length := by
  induction keys with
  | nil => simp [engineOpts]
  | cons a ks ih =>
    constructor
    · rintro ⟨r, h⟩
      simp only [engineOpts] at h
      cases hr : engineOpts inputs idx ks with
      | error e => simp [hr, bind, Except.bind] at h
      | ok r' =>
        have h2 := ih.1 ⟨_, hr⟩
        simp only [hr, bind, Except.bind] at h
        intro k hk vs hvs
        rcases List.mem_cons.1 hk with rfl | hk
        · simp only [hvs] at h
          cases hv : vs[idx]? with
          | none => simp [hv] at h
          | some v => exact (List.getElem?_eq_some_iff.1 hv).1
        · exact h2 k hk vs hvs
    · intro h
      obtain ⟨r', hr⟩ := ih.2 (fun k hk => h k (List.mem_cons_of_mem _ hk))
      cases hi : inputs.get? a with
      | none => exact ⟨r', by simp [engineOpts, hr, hi, bind, Except.bind]⟩
      | some vs =>
        have hl := h a (List.mem_cons_self ..) vs hi
        exact ⟨(a, vs[idx]) :: r', by simp [engineOpts, hr, hi, bind, Except.bind, List.getElem?_eq_getElem hl]⟩

/-- Distinct engine names none of which begins another. -/
def PrefixFree (names : List String) : Prop :=
  names.Pairwise (fun a b => startsWith a b = false ∧ startsWith b a = false)

theorem startsWith_self (a : String) : startsWith a a = true := by
  simp [startsWith]

theorem modelOptions_eq {V : Type} (inputs : Dict String (List V)) (keys : List String) (names : List String) (i : ℕ)
    (d : Dict String (Dict String V)) (hnd : names.Nodup) (hdis : ∀ n ∈ names, n ∉ d.keys)
    (r : Dict String (Dict String V)) (h : modelOptions inputs keys names i d = .ok r) :
    ∃ os, r = d ++ names.zip os ∧ os.length = names.length ∧
      ∀ j (hj : j < os.length), engineOpts inputs (i + j) keys = .ok os[j] := by
  induction names generalizing i d with
  | nil => simp only [modelOptions, Except.ok.injEq] at h; subst h; exact ⟨[], by simp⟩
  | cons n ns ih =>
    simp only [modelOptions] at h
    cases ho : engineOpts inputs i keys with
    | error e => simp [ho, bind, Except.bind] at h
    | ok o =>
      simp only [ho, bind, Except.bind] at h
      rw [List.nodup_cons] at hnd
      have hset : d.set n o = d ++ [(n, o)] := by
        have hn : n ∉ d.keys := hdis n (List.mem_cons_self ..)
        clear h hdis
        induction d with
        | nil => rfl
        | cons p d ihd =>
          obtain ⟨a, b⟩ := p
          simp only [Dict.keys, List.map_cons, List.mem_cons, not_or] at hn
          simp [Dict.set, Ne.symm hn.1]
          exact ihd hn.2
      rw [hset] at h
      obtain ⟨os, h1, h2, h3⟩ := ih (i + 1) _ hnd.2 (by
        intro m hm
        have := hdis m (List.mem_cons_of_mem _ hm)
        simp only [Dict.keys, List.map_append, List.map_cons, List.map_nil, List.mem_append, List.mem_singleton, not_or] at this ⊢
        exact ⟨this, fun e => hnd.1 (e ▸ hm)⟩) h
      refine ⟨o :: os, by simp [h1], by simp [h2], ?_⟩
      intro j hj
      cases j with
      | zero => simpa using ho
      | succ j =>
        have := h3 j (by simpa using hj)
        simpa [Nat.add_assoc, Nat.add_comm 1] using this

theorem optionSeen_skip {V : Type} (l : Dict String (Dict String V)) (name k : String) (acc : Option V)
    (h : ∀ p ∈ l, startsWith p.1 name = false) :
    l.foldl (fun acc p => if startsWith p.1 name then ((p.2.get? k).or acc) else acc) acc = acc := by
  induction l generalizing acc with
  | nil => rfl
  | cons p l ih =>
    simp only [List.foldl_cons, h p (List.mem_cons_self ..), Bool.false_eq_true, if_false]
    exact ih _ (fun q hq => h q (List.mem_cons_of_mem _ hq))

/-- **C44 (engine options, partial).** If no engine name begins another engine name, the systems of engine number `j`
see, for every engine option, entry `j` of the aircraft value. -/
theorem engine_options_partial {V : Type} (inputs : Dict String (List V)) (keys names : List String)
    (hp : PrefixFree names) (r : Dict String (Dict String V))
    (h : modelOptions inputs keys names 0 [] = .ok r) (j : ℕ) (hj : j < names.length) (k : String) (hk : k ∈ keys) :
    optionSeen r names[j] k = (inputs.get? k).bind (fun vs => vs[j]?) := by
  have hnd : names.Nodup := hp.imp (by
    rintro a b ⟨h1, _⟩ rfl
    rw [startsWith_self] at h1; cases h1)
  obtain ⟨os, h1, h2, h3⟩ := modelOptions_eq inputs keys names 0 [] hnd (by simp [Dict.keys]) r h
  have hjo : j < os.length := by omega
  have hjz : j < (names.zip os).length := by simp [h2, hj]
  have hsplit : names.zip os = (names.zip os).take j ++ (names[j], os[j]) :: (names.zip os).drop (j + 1) := by
    conv_lhs => rw [← List.take_append_drop j (names.zip os)]
    rw [List.drop_eq_getElem_cons hjz]
    simp
  have hoth : ∀ i (hi : i < names.length), i ≠ j → startsWith names[i] names[j] = false := by
    intro i hi hne
    rcases Nat.lt_or_gt_of_ne hne with hlt | hgt
    · exact (List.pairwise_iff_getElem.1 hp i j hi hj hlt).1
    · exact (List.pairwise_iff_getElem.1 hp j i hj hi hgt).2
  have hl : ∀ p ∈ (names.zip os).take j, startsWith p.1 names[j] = false := by
    intro p hpm
    obtain ⟨i, hi, rfl⟩ := List.mem_iff_getElem.1 hpm
    simp only [List.length_take] at hi
    simp only [List.getElem_take, List.getElem_zip]
    exact hoth i (by omega) (by omega)
  have hr : ∀ p ∈ (names.zip os).drop (j + 1), startsWith p.1 names[j] = false := by
    intro p hpm
    obtain ⟨i, hi, rfl⟩ := List.mem_iff_getElem.1 hpm
    simp only [List.length_drop, List.length_zip] at hi
    simp only [List.getElem_drop, List.getElem_zip]
    exact hoth (j + 1 + i) (by omega) (by omega)
  have hopt := engineOpts_get inputs (0 + j) keys _ (h3 j hjo) k
  rw [h1, List.nil_append, hsplit, optionSeen, List.foldl_append, List.foldl_cons,
    optionSeen_skip _ _ _ _ hl, startsWith_self, if_pos rfl, optionSeen_skip _ _ _ _ hr, hopt]
  simp [hk]

/-- **C44 (rejection).** The options of engine `idx` can be read iff every set engine option has an entry for it. -/
theorem engine_options_ok_iff {V : Type} (inputs : Dict String (List V)) (idx : ℕ) (keys : List String) :
    (∃ r, engineOpts inputs idx keys = .ok r) ↔ ∀ k ∈ keys, ∀ vs, inputs.get? k = some vs → idx < vs.length :=
  engineOpts_ok inputs idx keys

/-- **C44 violated (name prefixes).** With engines named `eng10` and `eng1`, in this order, the pattern of the second
also matches the systems of the first, which then uses the second engine's value. -/
theorem engine_options_prefix_violated : ∃ r,
    modelOptions [("o", [10, 1])] ["o"] ["eng10", "eng1"] 0 [] = .ok r ∧
    optionSeen r "eng10" "o" = some 1 ∧ optionSeen r "eng1" "o" = some 1 :=
  ⟨[("eng10", [("o", 10)]), ("eng1", [("o", 1)])], by decide +kernel⟩

/-- **C44 violated (equal names).** Two engine models with the same name share the options of the second. -/
theorem engine_options_same_name_violated : ∃ r,
    modelOptions [("o", [10, 1])] ["o"] ["e", "e"] 0 [] = .ok r ∧ r = [("e", [("o", 1)])] :=
  ⟨[("e", [("o", 1)])], by decide +kernel⟩

example : PrefixFree ["left", "right"] ∧ ∃ r, modelOptions [("o", [10, 1])] ["o"] ["left", "right"] 0 [] = .ok r ∧
    optionSeen r "left" "o" = some 10 := by
  refine ⟨?_, [("left", [("o", 10)]), ("right", [("o", 1)])], by decide +kernel⟩
  simp [PrefixFree]; decide +kernel

end Verif
