import Verif.Model.Declare
import Verif.Props.AviaryValues
import Verif.Props.MetaTable

/-!
# C120: declaring variables from the metadata
-/

namespace Verif.Declare

/-! ## `add_aviary_input` and `add_aviary_output` -/

theorem addVar_absent (db : UnitDB) (rt : PyRT) (io : IO) (md : Dict String VarMeta) (name : String) (u d : Option String)
    (sh : Option ℕ) (h : md.get? name = none) : addVar db rt io md name u d sh = .error .keyError := by
  simp only [addVar, h]

/-- A declaration that succeeds carries the requested units and description, those of the metadata by default, and its value meets the
metadata (an object array excepted); inputs get the shape, outputs do not. -/
theorem addVar_sound (db : UnitDB) (rt : PyRT) (io : IO) (md : Dict String VarMeta) (name : String) (u d : Option String)
    (sh : Option ℕ) (r : Decl) (h : addVar db rt io md name u d sh = .ok r) :
    ∃ m, md.get? name = some m ∧ (∀ x, u = some x → r.units = x) ∧ (u = none → r.units = m.units) ∧
      (∀ x, d = some x → r.desc = x) ∧ (d = none → r.desc = m.desc) ∧ (io = .input → r.shape = sh) ∧
      (io = .output → r.shape = none) ∧ (IsObjArray r.val ∨ Conforms m.toMeta r.val) := by
  unfold addVar at h
  cases hm : md.get? name with
  | none => simp only [hm] at h; cases h
  | some m =>
    simp only [hm] at h
    cases h0 : shaped sh m.dflt with
    | error e => simp only [h0] at h; cases h
    | ok v0 =>
      simp only [h0] at h
      cases h1 : requested db m (u.getD m.units) v0 with
      | error e => simp only [h1] at h; cases h
      | ok v1 =>
        simp only [h1] at h
        cases h2 : castType rt m.toMeta v1 with
        | error e => simp only [h2] at h; cases h
        | ok v2 =>
          simp only [h2] at h
          cases h3 : checkType m.toMeta v2 with
          | error e => simp only [h3] at h; cases h
          | ok w =>
            simp only [h3] at h
            cases h
            refine ⟨m, rfl, ?_, ?_, ?_, ?_, ?_, ?_, checkType_conforms _ _ h3⟩
            · rintro x rfl; rfl
            · rintro rfl; rfl
            · rintro x rfl; rfl
            · rintro rfl; rfl
            · rintro rfl; rfl
            · rintro rfl; rfl

/-- Units the metadata units can be converted to.  Equal units need not be known. -/
def Reachable (db : UnitDB) (a b : String) : Prop :=
  a = b ∨ a = "" ∨ b = "" ∨ ∃ x y, db a = some x ∧ db b = some y ∧ x.dim = y.dim

theorem convertUnits_ok_iff (db : UnitDB) (q : ℚ) (a b : String) :
    (∃ x, convertUnits db q a b = .ok x) ↔ a = "" ∨ b = "" ∨ ∃ x y, db a = some x ∧ db b = some y ∧ x.dim = y.dim := by
  unfold convertUnits
  by_cases h : a = "" ∨ b = ""
  · rw [if_pos h]
    exact ⟨fun _ => h.elim .inl (fun e => .inr (.inl e)), fun _ => ⟨q, rfl⟩⟩
  · rw [if_neg h]
    have h' : a ≠ "" ∧ b ≠ "" := ⟨fun e => h (.inl e), fun e => h (.inr e)⟩
    cases ha : db a with
    | none => simp [h'.1, h'.2]
    | some x =>
      cases hb : db b with
      | none => simp [h'.1, h'.2]
      | some y =>
        by_cases hd : x.dim = y.dim <;> simp [h'.1, h'.2, hd]

theorem float_cast (rt : PyRT) (m : Meta) (ts : List Ty) (ht : m.types = some ts) (hf : Ty.float ∈ ts) (q : ℚ) :
    castType rt m (.float q) = .ok (.float q) ∧ checkType m (.float q) = .ok () := by
  have h1 : isInstanceAny (.float q) ts = true := List.any_eq_true.2 ⟨_, hf, rfl⟩
  constructor
  · simp only [castType, ht, h1, if_true]
  · simp only [checkType, ht, isIterable, Bool.false_and, flattenVal]
    simp [itemOk, h1, isInstance]

/-- A variable with a number as default can be declared exactly in the units its own can be converted to, and the declared default
is the same physical value. -/
theorem addVar_float (db : UnitDB) (hdb : db.Sane) (rt : PyRT) (io : IO) (md : Dict String VarMeta) (name : String)
    (u d : Option String) (m : VarMeta) (hm : md.get? name = some m) (ts : List Ty) (ht : m.types = some ts) (hf : Ty.float ∈ ts)
    (q : ℚ) (hq : m.dflt = .float q) :
    ((∃ r, addVar db rt io md name u d none = .ok r) ↔ Reachable db m.units (u.getD m.units)) ∧
    ∀ r, addVar db rt io md name u d none = .ok r →
      ∃ x, r.val = .float x ∧ (r.units = m.units → x = q) ∧ (r.units ≠ m.units → convertUnits db x r.units m.units = .ok q) := by
  generalize hU : u.getD m.units = U
  by_cases he : U = m.units
  · have e : addVar db rt io md name u d none =
        .ok ⟨.float q, U, d.getD m.desc, passShape io none⟩ := by
      simp only [addVar, hm, shaped, requested, hU, he, ne_eq, not_true_eq_false, if_false, hq, (float_cast rt _ ts ht hf q).1,
        (float_cast rt _ ts ht hf q).2]
    refine ⟨⟨fun _ => .inl he.symm, fun _ => ⟨_, e⟩⟩, fun r hr => ?_⟩
    rw [e] at hr; cases hr
    exact ⟨q, rfl, fun _ => rfl, fun h => (h he).elim⟩
  · cases hc : convertUnits db q m.units U with
    | ok x =>
      have hl : convertLeaf db (.float q) m.units U = .ok (.float x) := by
        by_cases h0 : m.units = "" ∨ U = ""
        · simp only [convertLeaf, if_pos h0]
          simp only [convertUnits, if_pos h0] at hc
          cases hc; rfl
        · simp only [convertLeaf, if_neg h0, hc, Except.map]
      have e : addVar db rt io md name u d none =
          .ok ⟨.float x, U, d.getD m.desc, passShape io none⟩ := by
        simp only [addVar, hm, shaped, requested, hU, he, ne_eq, not_false_eq_true, if_true, hq, wrappedConvert, hl,
          (float_cast rt _ ts ht hf x).1, (float_cast rt _ ts ht hf x).2]
      refine ⟨⟨fun _ => .inr ((convertUnits_ok_iff db q _ _).1 ⟨x, hc⟩), fun _ => ⟨_, e⟩⟩, fun r hr => ?_⟩
      rw [e] at hr; cases hr
      exact ⟨x, rfl, fun h => (he h).elim, fun _ => convertUnits_roundtrip db hdb _ _ _ _ hc⟩
    | error er =>
      have hl : convertLeaf db (.float q) m.units U = .error er := by
        by_cases h0 : m.units = "" ∨ U = ""
        · simp only [convertUnits, if_pos h0] at hc; cases hc
        · simp only [convertLeaf, if_neg h0, hc, Except.map]
      have e : addVar db rt io md name u d none = .error er := by
        simp only [addVar, hm, shaped, requested, hU, he, ne_eq, not_false_eq_true, if_true, hq, wrappedConvert, hl]
      refine ⟨⟨fun ⟨r, hr⟩ => ?_, fun h => ?_⟩, fun r hr => ?_⟩
      · rw [e] at hr; cases hr
      · rcases h with h | h
        · exact (he h.symm).elim
        · obtain ⟨x, hx⟩ := (convertUnits_ok_iff db q _ _).2 h
          rw [hc] at hx; cases hx
      · rw [e] at hr; cases hr

theorem mapM_replicate {f : ℚ → Except Err ℚ} {q x : ℚ} (h : f q = .ok x) (n : ℕ) :
    (List.replicate n q).mapM f = .ok (List.replicate n x) := by
  induction n with
  | zero => rfl
  | succ n ih => rw [List.replicate_succ, List.mapM_cons, h]; simp only [bind, Except.bind, ih]; rfl

theorem callTy_floats (rt : PyRT) (l : List ℚ) : (l.map PVal.float).mapM (callTy rt .float) = some (l.map .float) := by
  induction l with
  | nil => rfl
  | cons x l ih => rw [List.map_cons, List.mapM_cons]; simp [callTy, ih]

theorem npArray_floats (l : List ℚ) (hl : l ≠ []) : npArray (l.map .float) = .arrF l := by
  have h1 : (l.map PVal.float).mapM (fun v => match v with | .int i => some i | _ => (none : Option ℤ)) = none := by
    cases l with
    | nil => exact (hl rfl).elim
    | cons x l => rw [List.map_cons, List.mapM_cons]; rfl
  have h2 : ∀ l : List ℚ, (l.map PVal.float).mapM (fun v => match v with
      | .int i => some (i : ℚ) | .float q => some q | _ => none) = some l := by
    intro l
    induction l with
    | nil => rfl
    | cons x l ih => rw [List.map_cons, List.mapM_cons]; simp [ih]
  unfold npArray
  split
  · rename_i h
    cases h1.symm.trans h
  · split
    · rename_i h
      cases (h2 l).symm.trans h
      rfl
    · rename_i h
      cases (h2 l).symm.trans h

/-- A shape fills the input with the default in the requested units. -/
theorem addVar_shape (db : UnitDB) (rt : PyRT) (md : Dict String VarMeta) (name : String) (io : IO)
    (u d : Option String) (n : ℕ) (hn : 0 < n) (m : VarMeta) (hm : md.get? name = some m) (ht : m.types = some [.float])
    (hmv : m.multivalue = true) (q x : ℚ) (hq : m.dflt = .float q)
    (hx : if u.getD m.units = m.units then x = q else convertUnits db q m.units (u.getD m.units) = .ok x) :
    ∃ r, addVar db rt io md name u d (some n) = .ok r ∧ r.val = .arrF (List.replicate n x) ∧ r.units = u.getD m.units := by
  have hr : requested db m (u.getD m.units) (.arrF (List.replicate n q)) = .ok (.arrF (List.replicate n x)) := by
    unfold requested
    split_ifs at hx with h
    · rw [if_neg (not_not.2 h), hx]
    · rw [if_pos h]
      simp only [wrappedConvert, mapM_replicate (f := fun q => convertUnits db q m.units (u.getD m.units)) hx, Except.map]
  have hne : List.replicate n x ≠ [] := by simp; omega
  have hc : castType rt m.toMeta (.arrF (List.replicate n x)) = .ok (.arrF (List.replicate n x)) := by
    simp only [castType, ht, isInstanceAny, List.any_cons, isInstance, List.any_nil, Bool.or_false, Bool.false_eq_true, if_false,
      firstEnum, castLoop, castOne, callTy_floats, Option.map_some, npArray_floats _ hne]
  have hk : checkType m.toMeta (.arrF (List.replicate n x)) = .ok () := by
    obtain ⟨k, rfl⟩ : ∃ k, n = k + 1 := ⟨n - 1, by omega⟩
    rw [List.replicate_succ]
    simp [checkType, ht, isIterable, hmv, isInstanceAny, isInstance, itemOk]
  refine ⟨⟨.arrF (List.replicate n x), u.getD m.units, d.getD m.desc, passShape io (some n)⟩, ?_, rfl, rfl⟩
  simp only [addVar, hm, shaped, hq, onesTimes, hr, hc, hk]

/-- For a number that is not multi-valued a shape is always an error. -/
theorem addVar_shape_single (db : UnitDB) (rt : PyRT) (md : Dict String VarMeta) (name : String) (io : IO)
    (u d : Option String) (n : ℕ) (hn : 0 < n) (m : VarMeta) (hm : md.get? name = some m) (ht : m.types = some [.float])
    (hmv : m.multivalue = false) (q : ℚ) (hq : m.dflt = .float q) :
    ∃ e, addVar db rt io md name u d (some n) = .error e ∧
      (Reachable db m.units (u.getD m.units) → e = .typeError) := by
  have hk : ∀ x : ℚ, castType rt m.toMeta (.arrF (List.replicate n x)) = .ok (.arrF (List.replicate n x)) ∧
      checkType m.toMeta (.arrF (List.replicate n x)) = .error .typeError := by
    intro x
    have hne : List.replicate n x ≠ [] := by simp; omega
    constructor
    · simp only [castType, ht, isInstanceAny, List.any_cons, isInstance, List.any_nil, Bool.or_false, Bool.false_eq_true, if_false,
        firstEnum, castLoop, castOne, callTy_floats, Option.map_some, npArray_floats _ hne]
    · simp [checkType, ht, isIterable, hmv, isInstanceAny, isInstance]
  by_cases he : u.getD m.units = m.units
  · refine ⟨.typeError, ?_, fun _ => rfl⟩
    simp only [addVar, hm, shaped, hq, onesTimes, requested, he, ne_eq, not_true_eq_false, if_false, (hk q).1, (hk q).2]
  · cases hc : convertUnits db q m.units (u.getD m.units) with
    | ok x =>
      refine ⟨.typeError, ?_, fun _ => rfl⟩
      simp only [addVar, hm, shaped, hq, onesTimes, requested, he, ne_eq, not_false_eq_true, if_true, wrappedConvert,
        mapM_replicate (f := fun q => convertUnits db q m.units (u.getD m.units)) hc, Except.map, (hk x).1, (hk x).2]
    | error e =>
      refine ⟨e, ?_, fun h => ?_⟩
      · obtain ⟨k, rfl⟩ : ∃ k, n = k + 1 := ⟨n - 1, by omega⟩
        simp only [addVar, hm, shaped, hq, onesTimes, requested, he, ne_eq, not_false_eq_true, if_true, wrappedConvert,
          List.replicate_succ, List.mapM_cons, hc, bind, Except.bind, Except.map]
      · rcases h with h | h
        · exact (he h.symm).elim
        · obtain ⟨x, hx⟩ := (convertUnits_ok_iff db q _ _).2 h
          rw [hc] at hx; cases hx

/-- A variable without default cannot be declared as input or output. -/
theorem addVar_none (db : UnitDB) (rt : PyRT) (md : Dict String VarMeta) (name : String) (io : IO) (u d : Option String)
    (sh : Option ℕ) (m : VarMeta) (hm : md.get? name = some m) (ht : m.types = some [.float]) (hq : m.dflt = .none) :
    addVar db rt io md name u d sh = .error .typeError := by
  cases sh with
  | some n => simp only [addVar, hm, shaped, hq, onesTimes]
  | none =>
    have hr : requested db m (u.getD m.units) .none = .ok .none := by unfold requested; split <;> rfl
    have hc : castType rt m.toMeta .none = .ok .none := by
      simp [castType, ht, isInstanceAny, isInstance, firstEnum, castLoop, castOne, callTy]
    have hk : checkType m.toMeta .none = .error .typeError := by
      simp [checkType, ht, isIterable, flattenVal, itemOk, isInstanceAny, isInstance]
    simp only [addVar, hm, shaped, hq, hr, hc, hk]

/-- Units OpenMDAO does not know give the `ValueError` of the helper; units of another dimension a `TypeError` of OpenMDAO, although
they are just as invalid. -/
theorem addVar_bad_units (db : UnitDB) (rt : PyRT) (md : Dict String VarMeta) (name : String) (io : IO) (U : String) (d : Option String)
    (m : VarMeta) (hm : md.get? name = some m) (q : ℚ) (hq : m.dflt = .float q) (h1 : m.units ≠ "") (h2 : U ≠ "") (a : UnitDef)
    (ha : db m.units = some a) (hU : U ≠ m.units) :
    (db U = none → addVar db rt io md name (some U) d none = .error .valueError) ∧
    (∀ b, db U = some b → a.dim ≠ b.dim → addVar db rt io md name (some U) d none = .error .typeError) := by
  refine ⟨fun hb => ?_, fun b hb hd => ?_⟩ <;>
  simp [addVar, hm, shaped, hq, requested, hU, wrappedConvert, convertLeaf, convertUnits, h1, h2, ha, hb, Except.map]
  simp [hd]

/-! ## `add_aviary_option` -/

/-- An option: with units its value is a pair, any extra arguments are dropped; else the value itself, with the conversion to members
only if the default is one. -/
theorem addOption_sound (db : UnitDB) (rt : PyRT) (md : Dict String VarMeta) (name : String) (val : Option PVal) (u d : Option String)
    (r : OptDecl) (h : addOption db rt md name val u d = .ok r) :
    ∃ m v, md.get? name = some m ∧ (v = .none ∨ IsObjArray v ∨ Conforms m.toMeta v) ∧ r.desc = d.getD m.desc ∧
      (r.warned = true ↔ m.option = false) ∧ (r.kwargs = true ↔ u.getD m.units = "unitless") ∧
      (u.getD m.units ≠ "unitless" → r.dflt = .tuple [v, .str (u.getD m.units)] ∧ r.types = some [.tuple] ∧ r.setter = .units) ∧
      (u.getD m.units = "unitless" → r.dflt = v ∧ r.types = optTypes m ∧ r.setter ≠ .units ∧
        (r.setter = .enum ↔ ∃ c x, v = .enum c x)) := by
  unfold addOption at h
  cases hm : md.get? name with
  | none => simp only [hm] at h; cases h
  | some m =>
    simp only [hm] at h
    cases h0 : optStart db m (u.getD m.units) val with
    | error e => simp only [h0] at h; cases h
    | ok v0 =>
      simp only [h0] at h
      cases h1 : optCheck rt m v0 with
      | error e => simp only [h1] at h; cases h
      | ok v =>
        simp only [h1] at h
        have hv : v = .none ∨ IsObjArray v ∨ Conforms m.toMeta v := by
          have gen : ∀ w, (match castType rt m.toMeta w with
              | .error e => (.error e : Except Err PVal)
              | .ok w => match checkType m.toMeta w with
                | .error e => .error e
                | .ok _ => .ok w) = .ok v → v = .none ∨ IsObjArray v ∨ Conforms m.toMeta v := by
            intro w hw
            cases hc : castType rt m.toMeta w with
            | error e => simp only [hc] at hw; cases hw
            | ok w' =>
              simp only [hc] at hw
              cases hk : checkType m.toMeta w' with
              | error e => simp only [hk] at hw; cases hw
              | ok _ => simp only [hk] at hw; cases hw; exact .inr (checkType_conforms _ _ hk)
          cases v0 with
          | none => simp only [optCheck] at h1; cases h1; exact .inl rfl
          | _ => exact gen _ h1
        refine ⟨m, v, rfl, hv, ?_⟩
        by_cases hu : u.getD m.units = "unitless"
        · simp only [hu, ne_eq, not_true_eq_false, if_false] at h
          cases v <;> cases h <;> simp [hu]
        · simp only [hu, ne_eq, not_false_eq_true, if_true] at h
          cases h
          simp [hu]

/-- The default of an option in the requested units. -/
theorem addOption_default (db : UnitDB) (rt : PyRT) (md : Dict String VarMeta) (name : String) (u d : Option String)
    (m : VarMeta) (hm : md.get? name = some m) (ts : List Ty) (ht : m.types = some ts) (hf : Ty.float ∈ ts) (q x : ℚ)
    (hq : m.dflt = .float q) (hu : u.getD m.units ≠ "unitless")
    (hx : if u.getD m.units = m.units then x = q else convertUnits db q m.units (u.getD m.units) = .ok x) :
    ∃ r, addOption db rt md name none u d = .ok r ∧ r.dflt = .tuple [.float x, .str (u.getD m.units)] := by
  have hr : requested db m (u.getD m.units) (.float q) = .ok (.float x) := by
    unfold requested
    split_ifs at hx with h
    · rw [if_neg (not_not.2 h), hx]
    · rw [if_pos h]
      by_cases h0 : m.units = "" ∨ u.getD m.units = ""
      · simp only [convertUnits, if_pos h0] at hx
        cases hx
        simp only [wrappedConvert, convertLeaf, if_pos h0]
      · simp only [wrappedConvert, convertLeaf, if_neg h0, hx, Except.map]
  refine ⟨⟨.tuple [.float x, .str (u.getD m.units)], some [.tuple], .units, d.getD m.desc, false, !m.option⟩, ?_, rfl⟩
  simp only [addOption, hm, optStart, hq, hr, optCheck, (float_cast rt _ ts ht hf x).1, (float_cast rt _ ts ht hf x).2, ne_eq, hu,
    not_false_eq_true, if_true]

/-- A value set later for an option with units is stored in the declared units and is the same physical value; one whose units are of
another dimension is refused. -/
theorem setOption_value (db : UnitDB) (hdb : db.Sane) (rt : PyRT) (md : Dict String VarMeta) (name : String) (val : Option PVal)
    (u d : Option String) (m : VarMeta) (hm : md.get? name = some m) (r : OptDecl) (h : addOption db rt md name val u d = .ok r)
    (hu : u.getD m.units ≠ "unitless") (q : ℚ) (w : String) (res : PVal) (hs : setOption db m r (.tuple [.float q, .str w]) = .ok res) :
    ∃ x, res = .tuple [.float x, .str (u.getD m.units)] ∧ convertUnits db x (u.getD m.units) w = .ok q := by
  obtain ⟨m', v, hm', _, _, _, _, hr, _⟩ := addOption_sound db rt md name val u d r h
  rw [hm] at hm'; cases hm'
  obtain ⟨h1, _, h3⟩ := hr hu
  simp only [setOption, h3, h1, POpt.unitsSetter, wrappedConvert] at hs
  by_cases h0 : w = "" ∨ u.getD m.units = ""
  · simp only [convertLeaf, if_pos h0, Except.map] at hs
    cases hs
    exact ⟨q, rfl, by simp only [convertUnits, if_pos h0.symm]⟩
  · simp only [convertLeaf, if_neg h0] at hs
    cases hc : convertUnits db q w (u.getD m.units) with
    | error e => simp only [hc, Except.map] at hs; cases hs
    | ok x =>
      simp only [hc, Except.map] at hs
      cases hs
      exact ⟨x, rfl, convertUnits_roundtrip db hdb _ _ _ _ hc⟩

/-- The units given with a value are not looked at: any text is accepted, and later values cannot be set. -/
theorem given_units_violated : ∃ (md : Dict String VarMeta) (r : OptDecl),
    addOption NV.exampleDB noTextRT md "x" (some (.float 3)) (some "furlong") none = .ok r ∧
    r.dflt = .tuple [.float 3, .str "furlong"] ∧ NV.exampleDB "furlong" = none ∧
    addOption NV.exampleDB noTextRT md "x" none (some "furlong") none = .error .valueError ∧
    ∀ m q w, w ≠ "" → setOption NV.exampleDB m r (.tuple [.float q, .str w]) = .error .valueError := by
  refine ⟨[("x", ⟨⟨some [.float], false, "ft"⟩, .float 0, "", true⟩)],
    ⟨.tuple [.float 3, .str "furlong"], some [.tuple], .units, "", false, false⟩, ?_, rfl, ?_, ?_, ?_⟩
  · simp [addOption, Dict.get?, optStart, optCheck, castType, checkType, isInstanceAny, isInstance, isIterable, flattenVal, itemOk]
  · simp [NV.exampleDB]
  · simp [addOption, Dict.get?, optStart, requested, wrappedConvert, convertLeaf, convertUnits, NV.exampleDB, Except.map]
  · intro m q w hw
    simp only [setOption, POpt.unitsSetter, wrappedConvert, convertLeaf, hw]
    cases NV.exampleDB w <;> simp [convertUnits, hw, NV.exampleDB, Except.map]

/-! ## All calls of the package -/

open MetaTable

theorem disagree_spec (ms : List Row) (cs : List Call) (c : Call) (hc : c ∈ cs) (hn : c ∉ disagree ms cs) :
    ∃ m ∈ ms, m.name = c.name ∧ callOk m c = true := by
  fun_induction disagree ms cs with
  | case1 => cases hc
  | case2 cs _ => exact (hn hc).elim
  | case3 m ms c' cs he ih =>
    rw [List.mem_append, not_or] at hn
    rcases List.mem_cons.1 hc with rfl | hc
    · refine ⟨m, List.mem_cons_self .., he, ?_⟩
      by_contra hk
      rw [if_neg hk] at hn
      exact hn.1 (List.mem_singleton_self _)
    · exact ih hc hn.2
  | case4 m ms c' cs he ih =>
    obtain ⟨m', hm', h⟩ := ih hc hn
    exact ⟨m', List.mem_cons_of_mem _ hm', h⟩

/-- The call that declares an option of the metadata as an input, aviary/subsystems/aerodynamics/gasp_based/gaspaero.py:752. -/
def excrescence : Call := ⟨t!"aircraft:design:percent_excrescence_drag", .input, none, false⟩

/-- Every call agrees with the metadata but one. -/
theorem calls_disagree : disagree table calls = [excrescence] := by decide +kernel

/-- Every call names a variable of the metadata; for all but one the units given have the dimensions of the metadata units, a shape is
only given for several values, an input or output has a default, and exactly the options are declared as options. -/
theorem calls_agree_partial : ∀ c ∈ calls, c ≠ excrescence → ∃ m ∈ table, m.name = c.name ∧ (∀ m' ∈ table, m'.name = c.name → m' = m) ∧
    (∀ u, c.units = some u → ∃ d, dims u = some d ∧ dims m.units = some d) ∧ (c.shape = true → m.multi = true) ∧
    (c.helper ≠ .option → m.dflt ≠ .missing) ∧ (c.helper = .option ↔ m.option = true) := by
  intro c hc he
  obtain ⟨m, hm, hn, hk⟩ := disagree_spec table calls c hc (by rw [calls_disagree]; simpa using he)
  refine ⟨m, hm, hn, fun m' hm' hn' => ?_, ?_⟩
  · exact List.inj_on_of_nodup_map names_nodup hm' hm (hn'.trans hn.symm)
  · simp only [callOk, Bool.and_eq_true, Bool.or_eq_true, Bool.not_eq_true', beq_iff_eq, bne_iff_ne] at hk
    obtain ⟨⟨⟨h1, h2⟩, h3⟩, h4⟩ := hk
    refine ⟨fun u hu => ?_, fun h => h2.resolve_left (by simp [h]), fun h => h3.resolve_left h, ?_⟩
    · simp only [hu, Bool.and_eq_true, beq_iff_eq] at h1
      obtain ⟨d, hd⟩ := Option.isSome_iff_exists.1 h1.2
      exact ⟨d, hd, h1.1 ▸ hd⟩
    · rw [← h4, beq_iff_eq]

/-- An option is declared as an input; the user's value, kept with the options, does not become its value. -/
theorem excrescence_violated : excrescence ∈ calls ∧ excrescence.helper = .input ∧
    ∃ m ∈ table, m.name = excrescence.name ∧ m.option = true := by
  refine ⟨by decide +kernel, rfl, ?_⟩
  have h : ∃ m ∈ table, m.name = excrescence.name ∧ m.option = true := by decide +kernel
  exact h

/-! ## The hypotheses can be met -/

/-- One length in feet, several masses, and a number without default. -/
def exMd : Dict String VarMeta :=
  [("l", ⟨⟨some [.float], false, "ft"⟩, .float 10, "length", false⟩), ("m", ⟨⟨some [.float], true, "ft"⟩, .float 10, "lengths", true⟩),
   ("n", ⟨⟨some [.float], false, "ft"⟩, .none, "none", true⟩)]

example : Reachable NV.exampleDB "ft" "m" := .inr (.inr (.inr ⟨_, _, rfl, rfl, rfl⟩))

example : ∃ r, addVar NV.exampleDB noTextRT .input exMd "l" (some "m") none none = .ok r :=
  (addVar_float NV.exampleDB NV.exampleDB_sane noTextRT .input exMd "l" (some "m") none _ rfl [.float] rfl (by simp) 10 rfl).1.2
    (.inr (.inr (.inr ⟨_, _, rfl, rfl, rfl⟩)))

example : ∃ r, addVar NV.exampleDB noTextRT .output exMd "m" none none (some 3) = .ok r ∧ r.val = .arrF [10, 10, 10] ∧ r.units = "ft" :=
  addVar_shape NV.exampleDB noTextRT exMd "m" .output none none 3 (by omega) _ rfl rfl rfl 10 10 rfl (if_pos rfl ▸ rfl)

example : ∃ e, addVar NV.exampleDB noTextRT .output exMd "l" none none (some 3) = .error e ∧
    (Reachable NV.exampleDB "ft" "ft" → e = .typeError) :=
  addVar_shape_single NV.exampleDB noTextRT exMd "l" .output none none 3 (by omega) _ rfl rfl rfl 10 rfl

example : addVar NV.exampleDB noTextRT .input exMd "n" none none none = .error .typeError :=
  addVar_none NV.exampleDB noTextRT exMd "n" .input none none none _ rfl rfl rfl

example : ∃ r, addOption NV.exampleDB noTextRT exMd "m" none none none = .ok r ∧ r.dflt = .tuple [.float 10, .str "ft"] :=
  addOption_default NV.exampleDB noTextRT exMd "m" none none _ rfl [.float] rfl (by simp) 10 10 rfl (by decide) (if_pos rfl ▸ rfl)

/-! ## Arrays of ones times the default -/

/-- The number a value is for numpy. -/
def NumOf : PVal → ℚ → Prop
  | .int i, q => q = i
  | .float x, q => q = x
  | .bool b, q => (b = true ∧ q = 1) ∨ (b = false ∧ q = 0)
  | _, _ => False

theorem numbers_iff (l : List PVal) (qs : List ℚ) : numbers l = some qs ↔ List.Forall₂ NumOf l qs := by
  induction l generalizing qs with
  | nil => simp [numbers, eq_comm]
  | cons v r ih =>
    have aux : ∀ x : ℚ, ((numbers r).map (x :: ·) = some qs ↔ ∃ t, qs = x :: t ∧ List.Forall₂ NumOf r t) := by
      intro x
      simp only [Option.map_eq_some_iff, ih]
      constructor
      · rintro ⟨t, h, rfl⟩; exact ⟨t, rfl, h⟩
      · rintro ⟨t, rfl, h⟩; exact ⟨t, h, rfl⟩
    rw [List.forall₂_cons_left_iff]
    cases v with
    | bool b =>
      rw [numbers, aux]
      constructor
      · rintro ⟨t, rfl, h⟩; exact ⟨_, t, by cases b <;> simp [NumOf], h, rfl⟩
      · rintro ⟨q, t, hq, h, rfl⟩
        refine ⟨t, ?_, h⟩
        rcases hq with ⟨rfl, rfl⟩ | ⟨rfl, rfl⟩ <;> rfl
    | int i =>
      rw [numbers, aux]
      constructor
      · rintro ⟨t, rfl, h⟩; exact ⟨_, t, rfl, h, rfl⟩
      · rintro ⟨q, t, rfl, h, rfl⟩; exact ⟨t, rfl, h⟩
    | float x =>
      rw [numbers, aux]
      constructor
      · rintro ⟨t, rfl, h⟩; exact ⟨_, t, rfl, h, rfl⟩
      · rintro ⟨q, t, rfl, h, rfl⟩; exact ⟨t, rfl, h⟩
    | _ => simp [numbers, NumOf]

/-- Broadcasting: equal sizes, a shape of one, or a single number repeated. -/
theorem broadcast_iff (n : ℕ) (xs r : List ℚ) :
    broadcast n xs = .ok (.arrF r) ↔ ((xs.length = n ∨ n = 1) ∧ r = xs) ∨ ∃ q, xs = [q] ∧ r = List.replicate n q := by
  unfold broadcast
  by_cases h : xs.length = n ∨ n = 1
  · rw [if_pos h]
    constructor
    · intro e; cases e; exact Or.inl ⟨h, rfl⟩
    · rintro (⟨-, rfl⟩ | ⟨q, rfl, rfl⟩)
      · rfl
      · have : n = 1 := by rcases h with h | h <;> simp_all
        subst this; rfl
  · rw [if_neg h]
    match xs with
    | [] =>
      constructor
      · intro e; cases e
      · rintro (⟨h', -⟩ | ⟨q, e, -⟩)
        · exact absurd h' h
        · cases e
    | [q] =>
      constructor
      · intro e; cases e; exact Or.inr ⟨q, rfl, rfl⟩
      · rintro (⟨h', -⟩ | ⟨q', e, rfl⟩)
        · exact absurd h' h
        · cases e; rfl
    | _ :: _ :: _ =>
      constructor
      · intro e; cases e
      · rintro (⟨h', -⟩ | ⟨q, e, -⟩)
        · exact absurd h' h
        · cases e

/-- A number becomes an array of the shape, filled with it. -/
theorem onesTimes_scalar (n : ℕ) (v : PVal) (q : ℚ) (h : NumOf v q) : onesTimes n v = .ok (.arrF (List.replicate n q)) := by
  cases v <;> simp only [NumOf] at h
  case bool b => rcases h with ⟨rfl, rfl⟩ | ⟨rfl, rfl⟩ <;> rfl
  case int => subst h; rfl
  case float => subst h; rfl

/-- A list of numbers is broadcast. -/
theorem onesTimes_list (n : ℕ) (l : List PVal) (qs : List ℚ) (h : List.Forall₂ NumOf l qs) :
    onesTimes n (.list l) = broadcast n qs ∧ onesTimes n (.tuple l) = broadcast n qs := by
  have := (numbers_iff l qs).2 h
  constructor <;> simp only [onesTimes, this]

example : onesTimes 3 (.list [.bool true]) = .ok (.arrF [1, 1, 1]) := rfl

end Verif.Declare
