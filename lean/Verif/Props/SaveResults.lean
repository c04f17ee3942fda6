import Mathlib.Tactic.NormNum
import Mathlib.Tactic.ByContra
import Mathlib.Tactic.Tauto
import Verif.Model.SaveResults
import Verif.Props.AviaryValues
import Verif.Props.InputDeck
import Verif.Lemmas.Dict

/-! # C82 Saving and reloading -/

namespace Verif.Save

open Verif

/-- A value that is neither a container nor an enum. -/
def Plain : PVal → Prop
  | .none | .bool _ | .int _ | .float _ | .str _ => True
  | _ => False

instance (v : PVal) : Decidable (Plain v) := by
  cases v <;> (unfold Plain; infer_instance)

theorem jsonVal_plain {v : PVal} (h : Plain v) : jsonVal v = .ok v := by
  cases v <;> first | rfl | exact absurd h id

theorem prepare_plain {v : PVal} (h : Plain v) : prepare v = .ok v := by
  cases v <;> first | rfl | exact absurd h id

theorem tagOf_plain {v : PVal} (h : Plain v) : tagOf v = .other := by
  cases v <;> first | rfl | exact absurd h id

theorem jsonList_plain : ∀ {xs : List PVal}, (∀ x ∈ xs, Plain x) → jsonList xs = .ok xs
  | [], _ => by simp [jsonList]
  | x :: xs, h => by
    have h1 := jsonVal_plain (h x (by simp))
    have h2 : jsonList xs = .ok xs := jsonList_plain fun y hy => h y (List.mem_cons_of_mem _ hy)
    simp only [jsonList, h1, h2]
    rfl

/-- A value that passes the type check is left alone by the cast. -/
theorem castType_plain (rt : PyRT) (m : Meta) (ts : List Ty) (hm : m.types = some ts) {v : PVal}
    (hv : Plain v ∨ ∃ c n, v = .enum c n) (h : checkType m v = .ok ()) : castType rt m v = .ok v := by
  have hi : isInstanceAny v ts = true := by
    have key : (flattenVal v).all (itemOk ts) = true → isInstanceAny v ts = true := by
      intro h
      have hf : flattenVal v = [v] := by
        rcases hv with hv | ⟨c, n, rfl⟩
        · cases v <;> first | rfl | exact absurd hv id
        · rfl
      rw [hf] at h
      simp only [List.all_cons, List.all_nil, Bool.and_true, itemOk, Bool.and_eq_true] at h
      exact h.1
    apply key
    rcases hv with hv | ⟨c, n, rfl⟩
    · cases v <;> first
        | exact absurd hv id
        | (simp only [checkType, hm, isIterable, Bool.false_and, Bool.false_eq_true, if_false] at h
           by_contra hn
           rw [if_neg hn] at h
           cases h)
    · simp only [checkType, hm, isIterable, Bool.false_and, Bool.false_eq_true, if_false] at h
      by_contra hn
      rw [if_neg hn] at h
      cases h
  simp [castType, hm, hi]

/-- What `set_val` does with a value that the metadata accepts as it is. -/
theorem avStep_accepts (db : UnitDB) (rt : PyRT) (md : Dict String Meta) (s : NV) (k u : String) (m : Meta)
    (v w : PVal) (hk : Dict.get? md k = some m) (hc : castType rt m v = .ok w) (ht : checkType m w = .ok ())
    (hu : checkCompat db m (some u) = .ok ()) :
    avStep db rt md s ⟨k, v, some u⟩ = Dict.set s k (w, u) := by
  simp [avStep, avSet, hk, hc, ht, hu, NV.setVal, NV.checkUnits, bind, Except.bind]

/-- The value `v` of the variable `k` in units `u` is written, and reading the row back stores `w`. -/
def Returns (db : UnitDB) (rt : PyRT) (tx : TxtRT) (md : Dict String Meta) (gross : String → ℚ) (k : String)
    (v : PVal) (u : String) (w : PVal) : Prop :=
  ∃ r, saveRow gross (k, v, u) = .ok r ∧ r.name = k ∧ r.units = u ∧
    ∀ s, loadRow db rt tx md s r = .ok (Dict.set s k (w, u))

/-- Numbers, flags, texts and `None` come back as they were. -/
theorem plain_returns (db : UnitDB) (rt : PyRT) (tx : TxtRT) (md : Dict String Meta) (gross : String → ℚ)
    (k u : String) (m : Meta) (ts : List Ty) (v : PVal) (hk : Dict.get? md k = some m) (hm : m.types = some ts)
    (hv : Plain v) (ht : checkType m v = .ok ()) (hu : checkCompat db m (some u) = .ok ())
    (h1 : k ≠ missionGross) (h2 : k ≠ designGross) :
    Returns db rt tx md gross k v u v := by
  refine ⟨⟨k, v, u, .other⟩, ?_, rfl, rfl, fun s => ?_⟩
  · simp [saveRow, h1, h2, prepare_plain hv, jsonVal_plain hv, tagOf_plain hv]
  · have hhas : Dict.has md k = true := by simp [Dict.has, hk]
    simp only [loadRow, loadVal, hhas, if_true]
    rw [avStep_accepts db rt md s k u m v v hk (castType_plain rt m ts hm (.inl hv) ht) ht hu]

/-- A class whose member `n` is found again by its name. -/
structure WellNamed (c : EnumCls) (n : String) : Prop where
  mem : ∃ e, (n, e) ∈ c.members
  upper : n.toUpper = n
  values : ∀ x ∈ c.members, x.2 = .str n → x.1 = n
  clean : cleanText n = n
  brackets : stripBy (fun c => c = '[' || c = ']') n.toList = n.toList
  point : '.' ∉ n.toList
  notTrue : lower n.toList ≠ "true".toList
  notFalse : lower n.toList ≠ "false".toList

theorem ofStr_wellNamed {c : EnumCls} {n : String} (h : WellNamed c n) : c.ofStr n = .ok (.enum c n) := by
  unfold EnumCls.ofStr
  cases hb : c.byValue (.str n) with
  | ok v =>
    unfold EnumCls.byValue at hb
    split at hb
    · rename_i x hx
      have h1 := List.mem_of_find?_eq_some hx
      have h2 := List.find?_some hx
      simp only [decide_eq_true_eq] at h2
      rw [h.values x h1 h2] at hb
      cases hb; rfl
    · cases hb
  | error e =>
    have : e = .valueError := by
      unfold EnumCls.byValue at hb
      split at hb
      · cases hb
      · cases hb; rfl
    subst this
    simp only [h.upper]
    unfold EnumCls.byName
    obtain ⟨e, he⟩ := h.mem
    cases hf : c.members.find? (fun m => decide (m.1 = n)) with
    | none =>
      rw [List.find?_eq_none] at hf
      exact absurd (by simp) (hf _ he)
    | some x =>
      have h2 := List.find?_some hf
      simp only [decide_eq_true_eq] at h2
      simp [h2]

theorem convertEntry_name (tx : TxtRT) {c : EnumCls} {n : String} (h : WellNamed c n)
    (hi : tx.pyInt n.toList = none) : convertEntry tx n.toList = .str n := by
  unfold convertEntry
  simp only [h.brackets, h.point, if_false, hi, Option.map_none, h.notTrue, h.notFalse]
  simp

/-- A member of an enum comes back as the same member, because a list whose first entry is a text makes `enum_setter`
return that one member. -/
theorem enum_returns (db : UnitDB) (rt : PyRT) (tx : TxtRT) (md : Dict String Meta) (gross : String → ℚ)
    (k u : String) (m : Meta) (ts : List Ty) (c : EnumCls) (n : String) (hk : Dict.get? md k = some m)
    (hm : m.types = some ts) (hl : Ty.list ∉ ts) (hc : firstEnum ts = some c) (hn : WellNamed c n)
    (hi : tx.pyInt n.toList = none)
    (ht : checkType m (.enum c n) = .ok ()) (hu : checkCompat db m (some u) = .ok ())
    (h1 : k ≠ missionGross) (h2 : k ≠ designGross) :
    Returns db rt tx md gross k (.enum c n) u (.enum c n) := by
  refine ⟨⟨k, .str n, u, .enum⟩, ?_, rfl, rfl, fun s => ?_⟩
  · simp [saveRow, h1, h2, prepare, jsonVal, tagOf]
  · have hhas : Dict.has md k = true := by simp [Dict.has, hk]
    simp only [loadRow, loadVal, hhas, if_true, hn.clean, convertEntry_name tx hn hi]
    have hno : isInstanceAny (.list [.str n]) ts = false := by
      unfold isInstanceAny
      rw [List.any_eq_false]
      intro t ht
      cases t <;> simp_all [isInstance]
    rw [avStep_accepts db rt md s k u m _ (.enum c n) hk (by
      simp [castType, hm, hno, hc, enumSetter, enumLoop, ofStr_wellNamed hn, bind, Except.bind]) ht hu]

instance (c : EnumCls) (n : String) : Decidable (∃ e, (n, e) ∈ c.members) :=
  decidable_of_iff (∃ x ∈ c.members, x.1 = n) ⟨fun ⟨x, h, e⟩ => ⟨x.2, by rw [← e]; exact h⟩,
    fun ⟨e, h⟩ => ⟨_, h, rfl⟩⟩

theorem wellNamed_iff (c : EnumCls) (n : String) : WellNamed c n ↔
    (∃ e, (n, e) ∈ c.members) ∧ n.toUpper = n ∧ (∀ x ∈ c.members, x.2 = .str n → x.1 = n) ∧ cleanText n = n ∧
      stripBy (fun c => c = '[' || c = ']') n.toList = n.toList ∧ '.' ∉ n.toList ∧
      lower n.toList ≠ "true".toList ∧ lower n.toList ≠ "false".toList :=
  ⟨fun h => ⟨h.1, h.2, h.3, h.4, h.5, h.6, h.7, h.8⟩, fun ⟨a, b, c, d, e, f, g, i⟩ => ⟨a, b, c, d, e, f, g, i⟩⟩

instance (c : EnumCls) (n : String) : Decidable (WellNamed c n) := decidable_of_iff _ (wellNamed_iff c n).symm

/-- Every member of every enum of the code is found again by its name. -/
theorem enums_wellNamed : ∀ c ∈ enums, ∀ x ∈ c.members, WellNamed c x.1 := by
  decide +kernel

/-- The only class whose members are numbers is `Verbosity`; inside a container its members are written as these
numbers, those of all other classes are refused. -/
theorem enums_numbers : ∀ c ∈ enums, (c.isInt = true ↔ c.name = "Verbosity") ∧
    ∀ x ∈ c.members, (c.name ≠ "Verbosity" → jsonVal (.enum c x.1) = .error .typeError) ∧
      (c.name = "Verbosity" → ∃ i : ℤ, x.2 = .int i ∧ jsonVal (.enum c x.1) = .ok (.int i)) := by
  have key : ∀ c ∈ enums, (c.isInt = true ↔ c.name = "Verbosity") ∧ (c.name = "Verbosity" →
      c.members = [("QUIET", .int 0), ("BRIEF", .int 1), ("VERBOSE", .int 2), ("DEBUG", .int 3)]) := by
    decide +kernel
  intro c hc
  obtain ⟨h1, h2⟩ := key c hc
  refine ⟨h1, fun x hx => ⟨fun hn => ?_, fun hn => ?_⟩⟩
  · have : ¬c.isInt = true := fun h => hn (h1.1 h)
    rw [jsonVal, if_neg this]
  · have hm := h2 hn
    rw [jsonVal, if_pos (h1.2 hn)]
    rw [hm] at hx ⊢
    simp only [List.mem_cons, List.not_mem_nil, or_false] at hx
    rcases hx with rfl | rfl | rfl | rfl
    · exact ⟨0, rfl, by simp⟩
    · exact ⟨1, rfl, by simp⟩
    · exact ⟨2, rfl, by simp⟩
    · exact ⟨3, rfl, by simp⟩

/-- Non-empty lists of plain values without marked texts come back, whenever the cast keeps them. -/
theorem list_returns_of (db : UnitDB) (rt : PyRT) (tx : TxtRT) (md : Dict String Meta) (gross : String → ℚ)
    (k u : String) (m : Meta) (x : PVal) (xs : List PVal) (hk : Dict.get? md k = some m)
    (hp : ∀ y ∈ x :: xs, Plain y) (hmk : ∀ y ∈ x :: xs, marked y = false)
    (hc : castType rt m (.list (x :: xs)) = .ok (.list (x :: xs)))
    (ht : checkType m (.list (x :: xs)) = .ok ()) (hu : checkCompat db m (some u) = .ok ())
    (h1 : k ≠ missionGross) (h2 : k ≠ designGross) :
    Returns db rt tx md gross k (.list (x :: xs)) u (.list (x :: xs)) := by
  have hpr : prepare (.list (x :: xs)) = .ok (.list (x :: xs)) := by
    have := hp x (by simp)
    cases x <;> first | rfl | exact absurd this id
  refine ⟨⟨k, .list (x :: xs), u, .list⟩, ?_, rfl, rfl, fun s => ?_⟩
  · simp [saveRow, h1, h2, hpr, jsonVal, jsonList_plain hp, tagOf, Except.map]
  · have hhas : Dict.has md k = true := by simp [Dict.has, hk]
    have hany : (x :: xs).any marked = false := by
      rw [List.any_eq_false]
      intro y hy
      simp [hmk y hy]
    simp only [loadRow, loadVal, hhas, hany, if_true, Bool.false_eq_true, if_false]
    rw [avStep_accepts db rt md s k u m _ _ hk hc ht hu]

/-- The scalar types. -/
def ScalarTy : Ty → Prop
  | .bool | .int | .float | .str => True
  | _ => False

theorem callTy_same (rt : PyRT) (hs : ∀ s, rt.strOf (.str s) = s) {t : Ty} (ht : ScalarTy t) {v : PVal}
    (hv : Plain v) (h : itemOk [t] v = true) : callTy rt t v = some v := by
  cases t <;> first
    | exact absurd ht id
    | (cases v <;> first
        | exact absurd hv id
        | simp_all [itemOk, isInstanceAny, isInstance, callTy, truthy])

theorem mapM_same {f : PVal → Option PVal} : ∀ {xs : List PVal}, (∀ x ∈ xs, f x = some x) → xs.mapM f = some xs
  | [], _ => rfl
  | x :: xs, h => by
    have h2 : xs.mapM f = some xs := mapM_same fun y hy => h y (List.mem_cons_of_mem _ hy)
    rw [List.mapM_cons, h x (by simp), h2]
    rfl

theorem flatten_plain : ∀ {xs : List PVal}, (∀ x ∈ xs, Plain x) → flattenList xs = xs
  | [], _ => by simp [flattenList]
  | x :: xs, h => by
    have h2 : flattenList xs = xs := flatten_plain fun y hy => h y (List.mem_cons_of_mem _ hy)
    have h1 : flattenVal x = [x] := by
      have := h x (by simp)
      cases x <;> first | (simp [flattenVal]; done) | exact absurd this id
    rw [flattenList, h1, h2]
    rfl

theorem checkType_items {m : Meta} {ts : List Ty} (hm : m.types = some ts) {xs : List PVal}
    (hp : ∀ x ∈ xs, Plain x) (h : checkType m (.list xs) = .ok ()) : ∀ x ∈ xs, itemOk ts x = true := by
  unfold checkType at h
  rw [hm] at h
  dsimp only at h
  by_cases hc : (isIterable (.list xs) && !isInstanceAny (.list xs)
      (if m.multivalue = true then [.list, .ndarray, .tuple] ++ ts else ts)) = true
  · rw [if_pos hc] at h; cases h
  · rw [if_neg hc] at h
    have hf : flattenVal (.list xs) = xs := by rw [flattenVal, flatten_plain hp]
    rw [hf] at h
    by_cases ha : xs.all (itemOk ts) = true
    · simpa using ha
    · rw [if_neg ha] at h; cases h

theorem castType_list (rt : PyRT) (hs : ∀ s, rt.strOf (.str s) = s) {m : Meta} {t : Ty} (hst : ScalarTy t)
    (hm : m.types = some [t]) {xs : List PVal} (hp : ∀ x ∈ xs, Plain x)
    (hi : ∀ x ∈ xs, itemOk [t] x = true) : castType rt m (.list xs) = .ok (.list xs) := by
  have hno : isInstanceAny (.list xs) [t] = false := by
    cases t <;> first | exact absurd hst id | rfl
  have hfe : firstEnum [t] = none := by
    cases t <;> first | exact absurd hst id | rfl
  have hmap : xs.mapM (callTy rt t) = some xs := mapM_same fun x hx => callTy_same rt hs hst (hp x hx) (hi x hx)
  simp [castType, hm, hno, hfe, castLoop, castOne, hmap]

/-- Lists of values of the one type of the variable come back as they were. -/
theorem list_returns (db : UnitDB) (rt : PyRT) (tx : TxtRT) (md : Dict String Meta) (gross : String → ℚ)
    (hs : ∀ s, rt.strOf (.str s) = s) (k u : String) (m : Meta) (t : Ty) (xs : List PVal) (hne : xs ≠ [])
    (hk : Dict.get? md k = some m) (hm : m.types = some [t]) (hst : ScalarTy t)
    (hp : ∀ y ∈ xs, Plain y) (hmk : ∀ y ∈ xs, marked y = false)
    (ht : checkType m (.list xs) = .ok ()) (hu : checkCompat db m (some u) = .ok ())
    (h1 : k ≠ missionGross) (h2 : k ≠ designGross) :
    Returns db rt tx md gross k (.list xs) u (.list xs) := by
  cases xs with
  | nil => exact absurd rfl hne
  | cons x xs =>
    exact list_returns_of db rt tx md gross k u m x xs hk hp hmk
      (castType_list rt hs hst hm hp (checkType_items hm hp ht)) ht hu h1 h2

/-- Arrays come back as lists with the same entries. -/
theorem array_returns (db : UnitDB) (rt : PyRT) (tx : TxtRT) (md : Dict String Meta) (gross : String → ℚ)
    (k u : String) (m : Meta) (qs : List ℚ) (hk : Dict.get? md k = some m) (hm : m.types = some [.float])
    (hmv : m.multivalue = true) (hu : checkCompat db m (some u) = .ok ())
    (h1 : k ≠ missionGross) (h2 : k ≠ designGross) :
    Returns db rt tx md gross k (.arrF qs) u (.list (qs.map .float)) := by
  have hp : ∀ x ∈ qs.map PVal.float, Plain x := by
    intro x hx
    obtain ⟨q, -, rfl⟩ := List.mem_map.mp hx
    trivial
  have hi : ∀ x ∈ qs.map PVal.float, itemOk [.float] x = true := by
    intro x hx
    obtain ⟨q, -, rfl⟩ := List.mem_map.mp hx
    rfl
  refine ⟨⟨k, .list (qs.map .float), u, .other⟩, ?_, rfl, rfl, fun s => ?_⟩
  · simp [saveRow, h1, h2, prepare, jsonVal, jsonList_plain hp, tagOf, Except.map]
  · have hhas : Dict.has md k = true := by simp [Dict.has, hk]
    simp only [loadRow, loadVal, hhas, if_true]
    have hc : castType rt m (.list (qs.map .float)) = .ok (.list (qs.map .float)) := by
      have hmap : (qs.map PVal.float).mapM (callTy rt .float) = some (qs.map .float) := mapM_same fun x hx => by
        obtain ⟨q, -, rfl⟩ := List.mem_map.mp hx
        rfl
      simp [castType, hm, isInstanceAny, isInstance, firstEnum, castLoop, castOne, hmap]
    have ht : checkType m (.list (qs.map .float)) = .ok () := by
      have hf : flattenVal (.list (qs.map .float)) = qs.map .float := by rw [flattenVal, flatten_plain hp]
      have ha : (qs.map PVal.float).all (itemOk [.float]) = true := by rw [List.all_eq_true]; exact hi
      unfold checkType
      rw [hm]
      dsimp only
      rw [if_neg (by simp [hmv, isInstanceAny, isInstance]), hf, if_pos ha]
    rw [avStep_accepts db rt md s k u m _ _ hk hc ht hu]

/-- The gross masses are written with the value the mission has. -/
theorem gross_returns (db : UnitDB) (rt : PyRT) (tx : TxtRT) (md : Dict String Meta) (gross : String → ℚ)
    (k u : String) (m : Meta) (ts : List Ty) (v : PVal) (hk : Dict.get? md k = some m) (hm : m.types = some ts)
    (hg : k = missionGross ∨ k = designGross) (hv : tagOf v = .other)
    (ht : checkType m (.float (gross u)) = .ok ()) (hu : checkCompat db m (some u) = .ok ()) :
    Returns db rt tx md gross k v u (.float (gross u)) := by
  refine ⟨⟨k, .float (gross u), u, .other⟩, ?_, rfl, rfl, fun s => ?_⟩
  · simp [saveRow, hg, hv]
  · have hhas : Dict.has md k = true := by simp [Dict.has, hk]
    simp only [loadRow, loadVal, hhas, if_true]
    rw [avStep_accepts db rt md s k u m _ _ hk (castType_plain rt m ts hm (.inl (by trivial)) ht) ht hu]

theorem set_append (s : NV) (k : String) (x : Item) (h : k ∉ s.keys) : Dict.set s k x = s ++ [(k, x)] := by
  induction s with
  | nil => rfl
  | cons y s ih =>
    have h1 : y.1 ≠ k := fun e => h (by simp [Dict.keys, e])
    have h2 : k ∉ Dict.keys s := fun e => h (by simp only [Dict.keys, List.map_cons, List.mem_cons]; exact .inr e)
    simp only [Dict.set, if_neg h1, ih h2, List.cons_append]

/-- Rows written for a container of returning values give the container back, in the same order. -/
theorem rows_return (db : UnitDB) (rt : PyRT) (tx : TxtRT) (md : Dict String Meta) (gross : String → ℚ)
    {s s' : NV} (h : List.Forall₂ (fun x y : String × Item => x.1 = y.1 ∧ x.2.2 = y.2.2 ∧
      Returns db rt tx md gross x.1 x.2.1 x.2.2 y.2.1) s s') (hn : s.keys.Nodup) :
    ∃ rs, saveRows gross s = .ok rs ∧ ∀ acc : NV, (∀ k ∈ s.keys, k ∉ acc.keys) →
      loadFrom db rt tx md acc rs = .ok (acc ++ s') := by
  induction h with
  | nil => exact ⟨[], rfl, fun acc _ => by simp [loadFrom]⟩
  | @cons x y s s' hxy _ ih =>
    obtain ⟨e1, e2, r, hr, -, -, hl⟩ := hxy
    have hn' : x.1 ∉ Dict.keys s ∧ (Dict.keys s).Nodup := by
      simpa [Dict.keys] using (List.nodup_cons.mp hn)
    obtain ⟨rs, hrs, hld⟩ := ih hn'.2
    refine ⟨r :: rs, by simp only [saveRows]; rw [show (x.1, x.2.1, x.2.2) = x from rfl] at hr; rw [hr, hrs],
      fun acc hacc => ?_⟩
    have hx : x.1 ∉ Dict.keys acc := hacc x.1 (by simp [Dict.keys])
    simp only [loadFrom, hl acc]
    rw [set_append acc x.1 _ hx, hld]
    · obtain ⟨y1, y2, y3⟩ := y
      simp only at e1 e2
      subst e1 e2
      simp
    · intro k hk
      have : k ∉ Dict.keys acc := hacc k (by simp only [Dict.keys, List.map_cons, List.mem_cons]; exact .inr hk)
      have hne : k ≠ x.1 := fun e => hn'.1 (e ▸ hk)
      simp only [Dict.keys, List.map_append, List.map_cons, List.map_nil, List.mem_append, List.mem_singleton] at *
      tauto

theorem loadFrom_append (db : UnitDB) (rt : PyRT) (tx : TxtRT) (md : Dict String Meta) :
    ∀ (rs qs : List Row) (s s' : NV), loadFrom db rt tx md s rs = .ok s' →
      loadFrom db rt tx md s (rs ++ qs) = loadFrom db rt tx md s' qs
  | [], _, s, s', h => by cases h; rfl
  | r :: rs, qs, s, s', h => by
    simp only [loadFrom, List.cons_append] at h ⊢
    cases hr : loadRow db rt tx md s r with
    | error e => rw [hr] at h; cases h
    | ok t => rw [hr] at h; exact loadFrom_append db rt tx md rs qs t s' h

/-- Saving and reloading a container gives back every value that returns, in order, followed by the design gross mass in
lbm when it was not an input. -/
theorem save_load (db : UnitDB) (rt : PyRT) (tx : TxtRT) (md : Dict String Meta) (gross : String → ℚ) (design : ℚ)
    (m : Meta) (ts : List Ty) (hk : Dict.get? md designGross = some m) (hm : m.types = some ts)
    (ht : checkType m (.float design) = .ok ()) (hu : checkCompat db m (some "lbm") = .ok ())
    {s s' : NV} (h : List.Forall₂ (fun x y : String × Item => x.1 = y.1 ∧ x.2.2 = y.2.2 ∧
      Returns db rt tx md gross x.1 x.2.1 x.2.2 y.2.1) s s') (hn : s.keys.Nodup) :
    ∃ rs, save gross design s = .ok rs ∧
      load db rt tx md rs = .ok (if designGross ∈ s.keys then s' else s' ++ [(designGross, .float design, "lbm")]) := by
  obtain ⟨rs, hrs, hl⟩ := rows_return db rt tx md gross h hn
  have h0 := hl [] (by simp [Dict.keys])
  have hhas : Dict.has s designGross = true ↔ designGross ∈ s.keys := by
    simp only [Dict.has]
    exact Dict.get?_isSome_iff s designGross
  have hkeys : Dict.keys s' = Dict.keys s := by
    clear hrs hl h0 hhas hn
    induction h with
    | nil => rfl
    | @cons x y s s' hxy _ ih => simp only [Dict.keys, List.map_cons, hxy.1] at ih ⊢; rw [ih]
  by_cases hd : designGross ∈ s.keys
  · refine ⟨rs, by simp [save, hrs, hhas.mpr hd], ?_⟩
    simpa [load, hd] using h0
  · refine ⟨rs ++ [⟨designGross, .float design, "lbm", .other⟩], ?_, ?_⟩
    · have : Dict.has s designGross = false := by
        rw [← Bool.not_eq_true, hhas]; exact hd
      simp [save, hrs, this]
    · rw [load, loadFrom_append db rt tx md rs _ [] _ h0]
      have hm2 : Dict.has md designGross = true := by simp [Dict.has, hk]
      simp only [loadFrom, loadRow, loadVal, hm2, if_true, hd, if_false]
      rw [avStep_accepts db rt md _ designGross "lbm" m _ _ hk (castType_plain rt m ts hm (.inl (by trivial)) ht) ht hu]
      rw [set_append]
      · simp
      · rw [List.nil_append, hkeys]; exact hd

/-! ### What does not come back -/

/-- The design gross mass of the inputs is replaced by the gross mass of the mission. -/
theorem design_gross_violated (gross : String → ℚ) (v : PVal) (u : String) :
    saveRow gross (designGross, v, u) = .ok ⟨designGross, .float (gross u), u, tagOf v⟩ := by
  simp [saveRow]

/-- A list of enum members comes back as its first member alone. -/
theorem enum_list_violated (db : UnitDB) (rt : PyRT) (tx : TxtRT) (md : Dict String Meta) (gross : String → ℚ)
    (k u : String) (m : Meta) (ts : List Ty) (c : EnumCls) (n : String) (ns : List String)
    (hk : Dict.get? md k = some m) (hm : m.types = some ts) (hl : Ty.list ∉ ts) (hc : firstEnum ts = some c)
    (hn : ∀ x ∈ n :: ns, WellNamed c x) (hlt : ∀ x ∈ n :: ns, '<' ∉ x.toList)
    (ht : checkType m (.enum c n) = .ok ()) (hu : checkCompat db m (some u) = .ok ())
    (h1 : k ≠ missionGross) (h2 : k ≠ designGross) :
    Returns db rt tx md gross k (.list ((n :: ns).map (.enum c))) u (.enum c n) := by
  have hen : ∀ xs : List String, enumNames (xs.map (.enum c)) = .ok (xs.map .str) := by
    intro xs
    induction xs with
    | nil => rfl
    | cons a xs ih => simp [enumNames, ih, bind, Except.bind]
  have hp : ∀ x ∈ (n :: ns).map PVal.str, Plain x := by
    intro x hx
    obtain ⟨q, -, rfl⟩ := List.mem_map.mp hx
    trivial
  have hen' := hen (n :: ns)
  have hjs := jsonList_plain hp
  simp only [List.map_cons] at hen' hjs ⊢
  refine ⟨⟨k, .list (.str n :: ns.map .str), u, .list⟩, ?_, rfl, rfl, fun s => ?_⟩
  · simp [saveRow, h1, h2, prepare, hen', jsonVal, hjs, tagOf, Except.map]
  · have hhas : Dict.has md k = true := by simp [Dict.has, hk]
    have hany : (PVal.str n :: ns.map .str).any marked = false := by
      rw [List.any_eq_false]
      intro y hy
      obtain ⟨q, hq, rfl⟩ := List.mem_map.mp (show y ∈ (n :: ns).map PVal.str from hy)
      simp [marked, hlt q hq]
    simp only [loadRow, loadVal, hhas, hany, if_true, Bool.false_eq_true, if_false]
    have hno : isInstanceAny (.list (.str n :: ns.map .str)) ts = false := by
      unfold isInstanceAny
      rw [List.any_eq_false]
      intro t ht
      cases t <;> simp_all [isInstance]
    rw [avStep_accepts db rt md s k u m _ (.enum c n) hk (by
      simp [castType, hm, hno, hc, enumSetter, enumLoop, ofStr_wellNamed (hn n (by simp)), bind, Except.bind]) ht hu]

/-- Saving raises for every container with an empty list, wherever it stands and whatever else is in it. -/
theorem empty_list_violated (gross : String → ℚ) (design : ℚ) (s : NV) (k u : String) (h1 : k ≠ missionGross)
    (h2 : k ≠ designGross) (h : (k, .list [], u) ∈ s) : ∃ e, save gross design s = .error e := by
  have : ∃ e, saveRows gross s = .error e := by
    induction s with
    | nil => cases h
    | cons x s ih =>
      simp only [saveRows]
      rcases List.mem_cons.mp h with h | h
      · subst h
        exact ⟨.indexError, by simp [saveRow, h1, h2, prepare]⟩
      · obtain ⟨e, he⟩ := ih h
        cases saveRow gross x with
        | error e => exact ⟨e, rfl⟩
        | ok r => exact ⟨e, by simp [he]⟩
  obtain ⟨e, he⟩ := this
  exact ⟨e, by simp [save, he]⟩

/-- Saving raises `TypeError` for arrays and tuples of enum members. -/
theorem enum_array_violated (gross : String → ℚ) (k u : String) (c : EnumCls) (n : String) (xs : List PVal)
    (hc : c.isInt = false) (h1 : k ≠ missionGross) (h2 : k ≠ designGross) :
    saveRow gross (k, .arrO (.enum c n :: xs), u) = .error .typeError ∧
    saveRow gross (k, .tuple (.enum c n :: xs), u) = .error .typeError := by
  simp [saveRow, h1, h2, prepare, jsonVal, jsonList, hc, bind, Except.bind, Except.map]

/-- Saving changes the container it saves: afterwards a list of enum members holds texts. -/
theorem save_mutates_violated : ∃ (c : EnumCls) (s : NV) (v : PVal), c ∈ enums ∧ Dict.get? s "k" = some (v, "unitless") ∧
    v = .list [.enum c "PLAIN"] ∧ ∃ w, Dict.get? (afterSave s) "k" = some (w, "unitless") ∧ w = .list [.str "PLAIN"] := by
  refine ⟨enums[7], [("k", .list [.enum enums[7] "PLAIN"], "unitless")], _, by decide +kernel, rfl, rfl, _, rfl, rfl⟩

/-- Plain values and arrays are left as they were. -/
theorem afterSave_plain (s : NV) (h : ∀ x ∈ s, Plain x.2.1) : afterSave s = s := by
  unfold afterSave
  conv_rhs => rw [← List.map_id s]
  apply List.map_congr_left
  intro x hx
  have := h x hx
  obtain ⟨k, v, u⟩ := x
  cases v <;> first | rfl | exact absurd this id

/-- An integer array of a variable with the types float, int, array comes back as floats. -/
theorem int_array_violated (rt : PyRT) (m : Meta) (hm : m.types = some [.float, .int, .ndarray]) (i : Int)
    (is : List Int) : castType rt m (.arrI (i :: is)) = .ok (.arrI (i :: is)) ∧
    castType rt m (.list ((i :: is).map .int)) = .ok (.list ((i :: is).map fun j : Int => PVal.float (j : ℚ))) := by
  have hmap : ∀ js : List Int, (js.map PVal.int).mapM (callTy rt .float) = some (js.map fun j : Int => PVal.float (j : ℚ)) := by
    intro js
    induction js with
    | nil => rfl
    | cons j js ih => rw [List.map_cons, List.mapM_cons, ih]; rfl
  constructor
  · simp [castType, hm, isInstanceAny, isInstance]
  · have hno : isInstanceAny (.list ((i :: is).map .int)) [.float, .int, .ndarray] = false := rfl
    simp only [castType, hm, hno, Bool.false_eq_true, if_false, firstEnum, castLoop, castOne, hmap, Option.map_some]

/-- A text with `<` in a list of texts is cut. -/
theorem marked_text_violated (tx : TxtRT) (hi : tx.pyInt "y".toList = none) :
    loadVal tx ⟨"k", .list [.str "<x:y>"], "unitless", .list⟩ = .ok (.list [.str "y"]) := by
  have h : cleanText "<x:y>" = "y" := by decide +kernel
  have h2 : convertEntry tx "y".toList = .str "y" := by
    unfold convertEntry
    have e1 : stripBy (fun c => c = '[' || c = ']') "y".toList = "y".toList := by decide +kernel
    simp only [e1]
    rw [if_neg (by decide), hi]
    simp only [Option.map_none]
    rw [if_neg (by decide), if_neg (by decide)]
    simp
  have h3 : '<' ∈ "<x:y>".toList := by decide
  simp only [loadVal, List.any_cons, List.any_nil, marked, h3, decide_true, Bool.or_false, if_true, List.map_cons,
    List.map_nil, h, convertTexts, h2, bind, Except.bind, Except.map]

/-- Variables without metadata are not restored. -/
theorem unknown_violated (db : UnitDB) (rt : PyRT) (tx : TxtRT) (md : Dict String Meta) (gross : String → ℚ) (k u : String)
    (v w : PVal) (s : NV) (h : k ∉ Dict.keys md) (hn : k ∉ s.keys) : ¬ Returns db rt tx md gross k v u w := by
  rintro ⟨r, hr, rfl, rfl, hl⟩
  have hf := hl s
  have hno : Dict.has md r.name = false := by
    rw [Dict.has, (Dict.get?_eq_none_iff md r.name).mpr h]; rfl
  unfold loadRow at hf
  cases hv : loadVal tx r with
  | error e => rw [hv] at hf; cases hf
  | ok x =>
    rw [hv] at hf
    simp only [hno, Bool.false_eq_true, if_false] at hf
    rw [set_append s r.name _ hn] at hf
    have := congrArg (fun e : Except Err NV => match e with | .ok l => l.length | .error _ => 0) hf
    simp at this

/-! ### A concrete case -/

/-- Python functions as far as they are needed below. -/
def exRt : PyRT := ⟨fun _ => none, fun _ => none, fun v => match v with | .str s => s | _ => "", fun _ => none⟩
def exTx : TxtRT := ⟨fun _ => none, fun _ => none, fun _ => false⟩
def exDb : UnitDB := fun s => if s = "lbm" then some ⟨1, 1, 0⟩ else if s = "unitless" then some ⟨0, 1, 0⟩ else none
def exFlap : EnumCls := enums[7]
def exMd : Dict String Meta :=
  [("span", ⟨some [.float], false, "lbm"⟩), ("flap", ⟨some [.enum exFlap], false, "unitless"⟩),
   ("names", ⟨some [.str], true, "unitless"⟩), ("table", ⟨some [.float], true, "lbm"⟩),
   (designGross, ⟨some [.float], false, "lbm"⟩), (missionGross, ⟨some [.float], false, "lbm"⟩)]

/-- A container with one value of each kind is saved and comes back; the array is a list then. -/
example : ∃ rs, save (fun _ => 1000) 900 [("span", .float 35, "lbm"), ("flap", .enum exFlap "FOWLER", "unitless"),
      ("names", .list [.str "a", .str "b"], "unitless"), ("table", .arrF [1, 2], "lbm"),
      (missionGross, .float 5, "lbm")] = .ok rs ∧
    load exDb exRt exTx exMd rs = .ok [("span", .float 35, "lbm"), ("flap", .enum exFlap "FOWLER", "unitless"),
      ("names", .list [.str "a", .str "b"], "unitless"), ("table", .list [.float 1, .float 2], "lbm"),
      (missionGross, .float 1000, "lbm"), (designGross, .float 900, "lbm")] := by
  have hl : checkCompat exDb ⟨some [.float], false, "lbm"⟩ (some "lbm") = .ok () := by decide +kernel
  have hl2 : checkCompat exDb ⟨some [.float], true, "lbm"⟩ (some "lbm") = .ok () := by decide +kernel
  have hn : ∀ l b, checkCompat exDb ⟨l, b, "unitless"⟩ (some "unitless") = .ok () := fun _ _ => by
    simp [checkCompat, convertUnits, exDb]
  have hw : WellNamed exFlap "FOWLER" := enums_wellNamed exFlap (by decide +kernel) ("FOWLER", .int 6) (by decide +kernel)
  obtain ⟨rs, h1, h2⟩ := save_load exDb exRt exTx exMd (fun _ => 1000) 900 ⟨some [.float], false, "lbm"⟩ [.float]
    rfl rfl rfl hl
    (s := [("span", .float 35, "lbm"), ("flap", .enum exFlap "FOWLER", "unitless"),
      ("names", .list [.str "a", .str "b"], "unitless"), ("table", .arrF [1, 2], "lbm"),
      (missionGross, .float 5, "lbm")])
    (s' := [("span", .float 35, "lbm"), ("flap", .enum exFlap "FOWLER", "unitless"),
      ("names", .list [.str "a", .str "b"], "unitless"), ("table", .list [.float 1, .float 2], "lbm"),
      (missionGross, .float 1000, "lbm")])
    (.cons ⟨rfl, rfl, plain_returns _ _ _ _ _ _ _ _ [.float] _ rfl rfl trivial rfl hl (by decide) (by decide)⟩
      (.cons ⟨rfl, rfl, enum_returns _ _ _ _ _ _ _ _ [.enum exFlap] exFlap _ rfl rfl (by simp) rfl hw rfl rfl (hn _ _)
          (by decide) (by decide)⟩
        (.cons ⟨rfl, rfl, list_returns _ _ _ _ _ (fun _ => rfl) _ _ _ .str _ (by simp) rfl rfl trivial
            (by simp [Plain]) (by simp [marked]) rfl (hn _ _) (by decide) (by decide)⟩
          (.cons ⟨rfl, rfl, array_returns _ _ _ _ _ _ _ _ _ rfl rfl rfl hl2 (by decide) (by decide)⟩
            (.cons ⟨rfl, rfl, gross_returns _ _ _ _ _ _ _ _ [.float] _ rfl rfl (.inl rfl) rfl rfl hl⟩ .nil)))))
    (by decide)
  refine ⟨rs, h1, ?_⟩
  rw [h2, if_neg (by decide)]
  rfl

end Verif.Save
