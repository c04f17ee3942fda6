import Verif.Model.AviaryValues
import Verif.Lemmas.Dict
import Verif.Props.NamedValues

/-! # C04, C05, C06: typed option container, unit conversion of containers, enum options -/

namespace Verif

/-! ## C05: `wrapped_convert_units` -/

/-- What C05 asks of a converted list: same length, `None` stays `None`, every number is converted. -/
def ConvertedList (db : UnitDB) (a b : String) (xs ys : List PVal) : Prop :=
  List.Forall₂ (fun x y => (x = .none ∧ y = .none) ∨ (x ≠ .none ∧ convertLeaf db x a b = .ok y)) xs ys

theorem convertItems_spec (db : UnitDB) (a b : String) (xs ys : List PVal)
    (h : convertItems db a b xs = .ok ys) : ConvertedList db a b xs ys := by
  induction xs generalizing ys with
  | nil => simp [convertItems] at h; subst h; exact .nil
  | cons x xs ih =>
    by_cases hx : x = .none
    · subst hx
      cases hr : convertItems db a b xs with
      | error e => simp [convertItems, hr, bind, Except.bind] at h
      | ok zs =>
        simp [convertItems, hr, bind, Except.bind] at h; subst h
        exact .cons (Or.inl ⟨rfl, rfl⟩) (ih zs hr)
    · have hx2 : convertItems db a b (x :: xs) = (convertLeaf db x a b >>= fun y =>
          convertItems db a b xs >>= fun ys => .ok (y :: ys)) := by
        cases x <;> first | exact absurd rfl hx | rfl
      rw [hx2] at h
      cases hl : convertLeaf db x a b with
      | error e => simp [hl, bind, Except.bind] at h
      | ok y =>
        cases hr : convertItems db a b xs with
        | error e => simp [hl, hr, bind, Except.bind] at h
        | ok zs =>
          simp [hl, hr, bind, Except.bind] at h; subst h
          exact .cons (Or.inr ⟨hx, hl⟩) (ih zs hr)

/-- **C05 (shape).** A successful conversion returns the same kind of container, of the same length, with
`None` entries kept and every other entry converted individually. -/
theorem wrappedConvert_shape (db : UnitDB) (a b : String) :
    wrappedConvert db .none a b = .ok .none ∧
    (∀ xs r, wrappedConvert db (.list xs) a b = .ok r → ∃ ys, r = .list ys ∧ ConvertedList db a b xs ys) ∧
    (∀ xs r, wrappedConvert db (.tuple xs) a b = .ok r → ∃ ys, r = .tuple ys ∧ ConvertedList db a b xs ys) ∧
    (∀ xs r, wrappedConvert db (.arrF xs) a b = .ok r →
      ∃ ys, r = .arrF ys ∧ List.Forall₂ (fun x y => convertUnits db x a b = .ok y) xs ys) := by
  refine ⟨rfl, ?_, ?_, ?_⟩
  · intro xs r h
    cases hc : convertItems db a b xs with
    | error e => simp [wrappedConvert, hc, Except.map] at h
    | ok ys =>
      simp [wrappedConvert, hc, Except.map] at h
      exact ⟨ys, h.symm, convertItems_spec _ _ _ _ _ hc⟩
  · intro xs r h
    cases hc : convertItems db a b xs with
    | error e => simp [wrappedConvert, hc, Except.map] at h
    | ok ys =>
      simp [wrappedConvert, hc, Except.map] at h
      exact ⟨ys, h.symm, convertItems_spec _ _ _ _ _ hc⟩
  · intro xs r h
    cases hc : xs.mapM (fun q => convertUnits db q a b) with
    | error e => simp [wrappedConvert, hc, Except.map] at h
    | ok ys =>
      simp [wrappedConvert, hc, Except.map] at h
      refine ⟨ys, h.symm, ?_⟩
      clear h
      induction xs generalizing ys with
      | nil => simp [pure, Except.pure] at hc; subst hc; exact .nil
      | cons x xs ih =>
        rw [List.mapM_cons] at hc
        cases h1 : convertUnits db x a b with
        | error e => simp [h1, bind, Except.bind] at hc
        | ok y =>
          cases h2 : xs.mapM (fun q => convertUnits db q a b) with
          | error e => simp [h1, h2, bind, Except.bind] at hc
          | ok zs =>
            simp [h1, h2, bind, Except.bind, pure, Except.pure] at hc; subst hc
            exact .cons h1 (ih zs h2)

theorem convertUnits_roundtrip (db : UnitDB) (hdb : db.Sane) (a b : String) (x y : ℚ)
    (h : convertUnits db x a b = .ok y) : convertUnits db y b a = .ok x := by
  unfold convertUnits at h ⊢
  by_cases h0 : a = "" ∨ b = ""
  · rw [if_pos h0] at h; rw [if_pos h0.symm]; cases h; rfl
  · rw [if_neg h0] at h; rw [if_neg (fun e => h0 e.symm)]
    cases hu : db a with
    | none => simp [hu] at h
    | some u =>
      cases hw : db b with
      | none => simp [hu, hw] at h
      | some w =>
        simp only [hu, hw] at h ⊢
        by_cases hd : u.dim = w.dim
        · rw [if_pos hd] at h; rw [if_pos hd.symm]
          have fu := hdb a u hu
          have fw := hdb b w hw
          cases h
          congr 1
          field_simp
          ring
        · rw [if_neg hd] at h; cases h

/-- **C05 (round trip, float arrays).** Converting a float array from `a` to `b` and back returns it. -/
theorem wrappedConvert_roundtrip_arrF (db : UnitDB) (hdb : db.Sane) (a b : String) (xs : List ℚ) (r : PVal)
    (h : wrappedConvert db (.arrF xs) a b = .ok r) : wrappedConvert db r b a = .ok (.arrF xs) := by
  obtain ⟨ys, rfl, hf⟩ := (wrappedConvert_shape db a b).2.2.2 xs r h
  have : ys.mapM (fun q => convertUnits db q b a) = .ok xs := by
    clear h
    induction hf with
    | nil => rfl
    | cons h1 _ ih =>
      rw [List.mapM_cons, convertUnits_roundtrip db hdb a b _ _ h1, ih]; rfl
  simp [wrappedConvert, this, Except.map]

/-- Lists whose entries are floats or `None`. -/
def FloatOrNone (xs : List PVal) : Prop := ∀ x ∈ xs, x = .none ∨ ∃ q, x = .float q

/-- **C05 (round trip, lists and tuples).** Same for lists (and hence tuples) of floats and `None`s. -/
theorem wrappedConvert_roundtrip_list (db : UnitDB) (hdb : db.Sane) (a b : String) (xs : List PVal)
    (hx : FloatOrNone xs) (r : PVal) :
    (wrappedConvert db (.list xs) a b = .ok r → wrappedConvert db r b a = .ok (.list xs)) ∧
    (wrappedConvert db (.tuple xs) a b = .ok r → wrappedConvert db r b a = .ok (.tuple xs)) := by
  have key : ∀ ys, ConvertedList db a b xs ys → convertItems db b a ys = .ok xs := by
    intro ys hc
    unfold ConvertedList at hc
    induction hc with
    | nil => rfl
    | @cons x y xs ys h1 _ ih =>
      have ih := ih (fun z hz => hx z (List.mem_cons_of_mem _ hz))
      rcases h1 with ⟨rfl, rfl⟩ | ⟨hne, h1⟩
      · simp [convertItems, ih, bind, Except.bind]
      · rcases hx x (List.mem_cons_self) with h | ⟨q, rfl⟩
        · exact absurd h hne
        · by_cases h0 : a = "" ∨ b = ""
          · simp only [convertLeaf, h0, if_true, Except.ok.injEq] at h1
            subst h1
            simp [convertItems, convertLeaf, h0.symm, ih, bind, Except.bind]
          · simp only [convertLeaf, h0, if_false] at h1
            cases hc : convertUnits db q a b with
            | error e => simp [hc, Except.map] at h1
            | ok z =>
              simp only [hc, Except.map, Except.ok.injEq] at h1
              subst h1
              have h0' : ¬ (b = "" ∨ a = "") := fun e => h0 e.symm
              simp [convertItems, convertLeaf, h0', convertUnits_roundtrip db hdb a b _ _ hc, Except.map, ih,
                bind, Except.bind]
  constructor <;> intro h
  · obtain ⟨ys, rfl, hc⟩ := (wrappedConvert_shape db a b).2.1 xs r h
    simp [wrappedConvert, key ys hc, Except.map]
  · obtain ⟨ys, rfl, hc⟩ := (wrappedConvert_shape db a b).2.2.1 xs r h
    simp [wrappedConvert, key ys hc, Except.map]

/-- **C05 violated for integer arrays.** The in-place loop keeps the integer dtype, so one foot stored as an
integer array reads as zero metres: the conversion is neither value-preserving nor invertible. -/
theorem wrappedConvert_int_array_violated :
    ∃ (db : UnitDB) (r : PVal), db.Sane ∧
      wrappedConvert db (.arrI [1]) "ft" "m" = .ok r ∧ r = .arrI [0] ∧
      wrappedConvert db r "m" "ft" = .ok (.arrI [0]) := by
  refine ⟨NV.exampleDB, .arrI [0], NV.exampleDB_sane, ?_, rfl, ?_⟩
  · simp [wrappedConvert, convertUnits, NV.exampleDB, Except.map, List.mapM_cons, bind, Except.bind, pure,
      Except.pure, truncToInt]
    norm_num
  · simp [wrappedConvert, convertUnits, NV.exampleDB, Except.map, List.mapM_cons, bind, Except.bind, pure,
      Except.pure, truncToInt]

example : wrappedConvert NV.exampleDB (.list [.float 10, .none, .float 20]) "ft" "m"
    = .ok (.list [.float (3048/1000), .none, .float (6096/1000)]) := by
  simp [wrappedConvert, convertItems, convertLeaf, convertUnits, NV.exampleDB, Except.map, bind, Except.bind]
  norm_num

/-! ## C06: `enum_setter` -/

/-- The member of `c` an element denotes: itself, or a member with that value, or (for text that is no
member's value) the member whose name is the upper-cased text. -/
def Denotes (c : EnumCls) (x y : PVal) : Prop :=
  (∃ c' m, x = .enum c' m ∧ y = x) ∨
  (∃ i n, x = .int i ∧ (n, EVal.int i) ∈ c.members ∧ y = .enum c n) ∨
  (∃ s n, x = .str s ∧ y = .enum c n ∧
    ((n, EVal.str s) ∈ c.members ∨
      ((∀ p ∈ c.members, p.2 ≠ .str s) ∧ n = s.toUpper ∧ ∃ v, (n, v) ∈ c.members)))

theorem byValue_ok {c : EnumCls} {v : EVal} {y : PVal} (h : c.byValue v = .ok y) :
    ∃ n, (n, v) ∈ c.members ∧ y = .enum c n := by
  unfold EnumCls.byValue at h
  cases hf : c.members.find? (fun m => m.2 = v) with
  | none => simp [hf] at h
  | some p =>
    simp only [hf, Except.ok.injEq] at h
    have h2 := List.find?_some hf
    simp only [decide_eq_true_eq] at h2
    exact ⟨p.1, by rw [← h2]; exact List.mem_of_find?_eq_some hf, h.symm⟩

theorem byValue_error {c : EnumCls} {v : EVal} {e : Err} (h : c.byValue v = .error e) :
    e = .valueError ∧ ∀ p ∈ c.members, p.2 ≠ v := by
  unfold EnumCls.byValue at h
  cases hf : c.members.find? (fun m => m.2 = v) with
  | some p => simp [hf] at h
  | none =>
    simp only [hf, Except.error.injEq] at h
    exact ⟨h.symm, by simpa using List.find?_eq_none.1 hf⟩

theorem byName_ok {c : EnumCls} {n : String} {y : PVal} (h : c.byName n = .ok y) :
    y = .enum c n ∧ ∃ v, (n, v) ∈ c.members := by
  unfold EnumCls.byName at h
  cases hf : c.members.find? (fun m => m.1 = n) with
  | none => simp [hf] at h
  | some p =>
    simp only [hf, Except.ok.injEq] at h
    have h2 := List.find?_some hf
    simp only [decide_eq_true_eq] at h2
    exact ⟨by rw [← h, h2], p.2, by rw [← h2]; exact List.mem_of_find?_eq_some hf⟩

theorem ofStr_ok {c : EnumCls} {s : String} {y : PVal} (h : c.ofStr s = .ok y) : Denotes c (.str s) y := by
  unfold EnumCls.ofStr at h
  cases hv : c.byValue (.str s) with
  | ok v =>
    simp only [hv, Except.ok.injEq] at h
    obtain ⟨n, hn, rfl⟩ := byValue_ok hv
    exact Or.inr (Or.inr ⟨s, n, rfl, h.symm, Or.inl hn⟩)
  | error e =>
    obtain ⟨rfl, hno⟩ := byValue_error hv
    simp only [hv] at h
    obtain ⟨rfl, v, hm⟩ := byName_ok h
    exact Or.inr (Or.inr ⟨s, _, rfl, rfl, Or.inr ⟨hno, rfl, v, hm⟩⟩)

/-- **C06 violated.** A list of two option names is turned into the single member named by the first one. -/
theorem enumSetter_string_list_violated (c : EnumCls) (s : String) (xs : List PVal) (y : PVal)
    (h : c.ofStr s = .ok y) :
    enumSetter c (.list (.str s :: xs)) = .ok y := by
  simp [enumSetter, enumLoop, h, bind, Except.bind]

/-- **C06 violated (truncation).** A float in a list silently drops it and everything after it. -/
theorem enumSetter_break_violated (c : EnumCls) (m : String) (q : ℚ) (rest : List PVal) :
    enumSetter c (.list (.enum c m :: .float q :: rest)) = .ok (.list [.enum c m]) := by
  simp [enumSetter, enumLoop, bind, Except.bind]

/-- **C06 (scalars).** Whatever is returned for a scalar is the member it denotes. -/
theorem enumSetter_scalar (c : EnumCls) (x y : PVal) (hx : isIterable x = false)
    (hb : ∀ b, x ≠ .bool b) (h : enumSetter c x = .ok y) : Denotes c x y := by
  cases x with
  | enum c' m => simp [enumSetter] at h; exact Or.inl ⟨c', m, rfl, h.symm⟩
  | int i => 
    obtain ⟨n, hn, rfl⟩ := byValue_ok (by simpa [enumSetter] using h : c.byValue (.int i) = .ok y)
    exact Or.inr (Or.inl ⟨i, n, rfl, hn, rfl⟩)
  | str s => exact ofStr_ok (by simpa [enumSetter] using h)
  | bool b => exact absurd rfl (hb b)
  | none => simp [enumSetter] at h
  | float q => simp [enumSetter] at h
  | list xs => simp [isIterable] at hx
  | tuple xs => simp [isIterable] at hx
  | arrF xs => simp [isIterable] at hx
  | arrI xs => simp [isIterable] at hx
  | arrO xs => simp [isIterable] at hx

/-- **C06 (unknown names and values raise).** An integer that is no member's value raises `ValueError`, text
that is neither a member's value nor, upper-cased, a member's name raises `AttributeError`; every name, in any
case, and every value of a member is accepted. -/
theorem enumSetter_unknown (c : EnumCls) :
    (∀ i, (∀ p ∈ c.members, p.2 ≠ .int i) → enumSetter c (.int i) = .error .valueError) ∧
    (∀ s, (∀ p ∈ c.members, p.2 ≠ .str s) → (∀ p ∈ c.members, p.1 ≠ s.toUpper) →
      enumSetter c (.str s) = .error .attributeError) ∧
    (∀ s, (∃ p ∈ c.members, p.2 = .str s ∨ p.1 = s.toUpper) → ∃ y, enumSetter c (.str s) = .ok y) ∧
    (∀ i, (∃ p ∈ c.members, p.2 = .int i) → ∃ y, enumSetter c (.int i) = .ok y) := by
  refine ⟨?_, ?_, ?_, ?_⟩
  · intro i h
    have : c.members.find? (fun m => m.2 = .int i) = none := List.find?_eq_none.2 (by simpa using h)
    simp [enumSetter, EnumCls.byValue, this]
  · intro s h h2
    have e1 : c.members.find? (fun m => m.2 = .str s) = none := List.find?_eq_none.2 (by simpa using h)
    have e2 : c.members.find? (fun m => m.1 = s.toUpper) = none :=
      List.find?_eq_none.2 (by simpa using h2)
    simp [enumSetter, EnumCls.ofStr, EnumCls.byValue, EnumCls.byName, e1, e2]
  · rintro s ⟨p, hp, h⟩
    cases hv : c.byValue (.str s) with
    | ok y => exact ⟨y, by simp [enumSetter, EnumCls.ofStr, hv]⟩
    | error e =>
      obtain ⟨rfl, hno⟩ := byValue_error hv
      rcases h with h | h
      · exact absurd h (hno p hp)
      · cases hf : c.members.find? (fun m => m.1 = s.toUpper) with
        | none =>
          have := List.find?_eq_none.1 hf p hp
          simp [h] at this
        | some q => exact ⟨.enum c q.1, by simp [enumSetter, EnumCls.ofStr, hv, EnumCls.byName, hf]⟩
  · rintro i ⟨p, hp, h⟩
    cases hf : c.members.find? (fun m => m.2 = .int i) with
    | none =>
      have := List.find?_eq_none.1 hf p hp
      simp [h] at this
    | some q => exact ⟨.enum c q.1, by simp [enumSetter, EnumCls.byValue, hf]⟩

/-- **C06 (partial).** For lists of members and integers only (no text), the result is the list of the denoted
members, element by element.  Missing from the full statement: lists containing names. -/
theorem enumSetter_list_partial (c : EnumCls) (xs : List PVal) (y : PVal)
    (hx : ∀ x ∈ xs, (∃ c' m, x = .enum c' m) ∨ ∃ i, x = .int i)
    (h : enumSetter c (.list xs) = .ok y) : ∃ ys, y = .list ys ∧ List.Forall₂ (Denotes c) xs ys := by
  have key : ∀ (xs acc : List PVal) (r : EnumLoop),
      (∀ x ∈ xs, (∃ c' m, x = .enum c' m) ∨ ∃ i, x = .int i) → enumLoop c xs acc = .ok r →
      ∃ ys, r = .done (acc ++ ys) ∧ List.Forall₂ (Denotes c) xs ys := by
    intro xs
    induction xs with
    | nil => intro acc r _ h; simp [enumLoop] at h; exact ⟨[], by simp [h], .nil⟩
    | cons x xs ih =>
      intro acc r hx h
      have hx' : ∀ z ∈ xs, _ := fun z hz => hx z (List.mem_cons_of_mem _ hz)
      rcases hx x List.mem_cons_self with ⟨c', m, rfl⟩ | ⟨i, rfl⟩
      · simp only [enumLoop] at h
        obtain ⟨ys, h1, h2⟩ := ih _ _ hx' h
        exact ⟨.enum c' m :: ys, by simpa using h1, .cons (Or.inl ⟨c', m, rfl, rfl⟩) h2⟩
      · simp only [enumLoop] at h
        cases hv : c.byValue (.int i) with
        | error e => simp [hv, bind, Except.bind] at h
        | ok v =>
          simp only [hv, bind, Except.bind] at h
          obtain ⟨ys, h1, h2⟩ := ih _ _ hx' h
          obtain ⟨n, hn, rfl⟩ := byValue_ok hv
          exact ⟨.enum c n :: ys, by simpa using h1, .cons (Or.inr (Or.inl ⟨i, n, rfl, hn, rfl⟩)) h2⟩
  simp only [enumSetter] at h
  cases hl : enumLoop c xs [] with
  | error e => simp [hl, bind, Except.bind] at h
  | ok r =>
    obtain ⟨ys, rfl, h2⟩ := key xs [] r hx hl
    simp [hl, bind, Except.bind] at h
    exact ⟨ys, h.symm, h2⟩

/-- A concrete enum (aviary/variable_info/enums.py:259-262). -/
def throttleEnum : EnumCls :=
  ⟨"ThrottleAllocation", false, [("FIXED", .str "fixed"), ("STATIC", .str "static"), ("DYNAMIC", .str "dynamic")]⟩

/-- (aviary/variable_info/enums.py:153-159) -/
def flapEnum : EnumCls :=
  ⟨"FlapType", false, [("PLAIN", .int 1), ("SPLIT", .int 2), ("SINGLE_SLOTTED", .int 3)]⟩

example : enumSetter throttleEnum (.list [.str "dynamic", .str "fixed"])
    = .ok (.enum throttleEnum "DYNAMIC") := by
  apply enumSetter_string_list_violated
  simp [EnumCls.ofStr, EnumCls.byValue, throttleEnum]

example : enumSetter flapEnum (.list [.int 3, .int 1])
    = .ok (.list [.enum flapEnum "SINGLE_SLOTTED", .enum flapEnum "PLAIN"]) := by
  simp [enumSetter, enumLoop, EnumCls.byValue, flapEnum, bind, Except.bind]

/-! ## C04: what `AviaryValues` can contain -/

/-- `Leaf v w`: `w` is one of the innermost, non-iterable values of `v`. -/
inductive Leaf : PVal → PVal → Prop
  | scalar {v} : isIterable v = false → Leaf v v
  | inList {xs x w} : x ∈ xs → Leaf x w → Leaf (.list xs) w
  | inTuple {xs x w} : x ∈ xs → Leaf x w → Leaf (.tuple xs) w
  | inArrO {xs x w} : x ∈ xs → Leaf x w → Leaf (.arrO xs) w
  | inArrF {xs q} : q ∈ xs → Leaf (.arrF xs) (.float q)
  | inArrI {xs i} : i ∈ xs → Leaf (.arrI xs) (.int i)

/-- A scalar is of one of the declared types; a `bool` only counts if `bool` itself is declared. -/
def LeafOk (ts : List Ty) (w : PVal) : Prop :=
  (∃ t ∈ ts, isInstance w t = true) ∧ (∀ b, w = .bool b → Ty.bool ∈ ts)

/-- The stored value meets the metadata: every innermost value has a declared type, and an iterable is only
allowed if the variable is multi-valued or its container type is declared. -/
def Conforms (m : Meta) (v : PVal) : Prop :=
  ∀ ts, m.types = some ts →
    (∀ w, Leaf v w → LeafOk ts w) ∧
    (isIterable v = true → m.multivalue = true ∨ ∃ t ∈ ts, isInstance v t = true)

/-- Units convertible to the metadata units ("" means "no units", which OpenMDAO accepts anywhere). -/
def Compatible (db : UnitDB) (m : Meta) (u : String) : Prop :=
  m.units = "" ∨ u = "" ∨ ∃ a b, db m.units = some a ∧ db u = some b ∧ a.dim = b.dim

/-- The value is an object-dtype array. -/
def IsObjArray (v : PVal) : Prop := ∃ xs, v = .arrO xs

theorem itemOk_iff (ts : List Ty) (w : PVal) : itemOk ts w = true ↔ LeafOk ts w := by
  unfold itemOk LeafOk isInstanceAny
  rw [Bool.and_eq_true, List.any_eq_true, Bool.or_eq_true, decide_eq_true_eq]
  refine and_congr Iff.rfl ⟨?_, ?_⟩
  · rintro (h | h) b rfl
    · exact h
    · simp [isInstance] at h
  · intro h
    cases w with
    | bool b => exact Or.inl (h b rfl)
    | _ => exact Or.inr (by simp [isInstance])

theorem leaf_flatten {v w : PVal} (h : Leaf v w) : w ∈ flattenVal v := by
  have mem : ∀ (xs : List PVal) (x w : PVal), x ∈ xs → w ∈ flattenVal x → w ∈ flattenList xs := by
    intro xs
    induction xs with
    | nil => intro x w h; cases h
    | cons y ys ih =>
      intro x w hx hw
      rw [flattenList, List.mem_append]
      rcases List.mem_cons.1 hx with rfl | hx
      · exact Or.inl hw
      · exact Or.inr (ih x w hx hw)
  induction h with
  | @scalar v h => cases v <;> simp_all [isIterable, flattenVal]
  | inList hx _ ih => rw [flattenVal]; exact mem _ _ _ hx ih
  | inTuple hx _ ih => rw [flattenVal]; exact mem _ _ _ hx ih
  | inArrO hx _ ih => rw [flattenVal]; exact mem _ _ _ hx ih
  | inArrF hq => rw [flattenVal]; exact List.mem_map.2 ⟨_, hq, rfl⟩
  | inArrI hq => rw [flattenVal]; exact List.mem_map.2 ⟨_, hq, rfl⟩

theorem leafOk_float (ts : List Ty) (q r : ℚ) (h : LeafOk ts (.float q)) : LeafOk ts (.float r) := by
  obtain ⟨⟨t, ht, hi⟩, _⟩ := h
  refine ⟨⟨t, ht, ?_⟩, by intro b hb; cases hb⟩
  cases t <;> simp_all [isInstance]

theorem leafOk_int (ts : List Ty) (q r : Int) (h : LeafOk ts (.int q)) : LeafOk ts (.int r) := by
  obtain ⟨⟨t, ht, hi⟩, _⟩ := h
  refine ⟨⟨t, ht, ?_⟩, by intro b hb; cases hb⟩
  cases t <;> simp_all [isInstance]

/-- `check_type` accepts only conforming values, object arrays excepted. -/
theorem checkType_conforms (m : Meta) (v : PVal) (h : checkType m v = .ok ()) :
    IsObjArray v ∨ Conforms m v := by
  by_cases hobj : IsObjArray v
  · exact Or.inl hobj
  refine Or.inr ?_
  intro ts hts
  simp only [checkType, hts] at h
  by_cases hiter : (isIterable v && !(isInstanceAny v
      (if m.multivalue then [.list, .ndarray, .tuple] ++ ts else ts))) = true
  · rw [if_pos hiter] at h; cases h
  rw [if_neg hiter] at h
  refine ⟨?_, ?_⟩
  · intro w hw
    have flat : ∀ l : List PVal, (match (Except.ok l : Except Err (List PVal)) with
        | .error e => (.error e : Except Err Unit)
        | .ok is => if is.all (itemOk ts) then .ok () else .error .typeError) = .ok () →
        ∀ x ∈ l, LeafOk ts x := by
      intro l hl x hx
      simp only at hl
      split at hl
      · rename_i hall; exact (itemOk_iff ts x).1 (List.all_eq_true.1 hall x hx)
      · cases hl
    cases v with
    | arrO xs => exact absurd ⟨xs, rfl⟩ hobj
    | arrF xs =>
      cases xs with
      | nil => cases hw with
        | scalar h' => simp [isIterable] at h'
        | inArrF hq => cases hq
      | cons q qs =>
        have := flat [.float q] h _ (List.mem_singleton.2 rfl)
        cases hw with
        | scalar h' => simp [isIterable] at h'
        | inArrF hq => exact leafOk_float ts q _ this
    | arrI xs =>
      cases xs with
      | nil => cases hw with
        | scalar h' => simp [isIterable] at h'
        | inArrI hq => cases hq
      | cons q qs =>
        have := flat [.int q] h _ (List.mem_singleton.2 rfl)
        cases hw with
        | scalar h' => simp [isIterable] at h'
        | inArrI hq => exact leafOk_int ts q _ this
    | _ => exact flat _ h w (leaf_flatten hw)
  · intro hv
    by_cases hm : m.multivalue = true
    · exact Or.inl hm
    · refine Or.inr ?_
      rw [if_neg hm, hv, Bool.true_and, Bool.not_eq_true', Bool.not_eq_false] at hiter
      exact List.any_eq_true.1 hiter

theorem checkCompat_ok (db : UnitDB) (m : Meta) (u : String) (h : checkCompat db m (some u) = .ok ()) :
    Compatible db m u := by
  simp only [checkCompat, convertUnits] at h
  by_cases h0 : m.units = "" ∨ u = ""
  · rcases h0 with h0 | h0
    · exact Or.inl h0
    · exact Or.inr (Or.inl h0)
  · rw [if_neg h0] at h
    refine Or.inr (Or.inr ?_)
    cases ha : db m.units with
    | none => simp [ha] at h
    | some a =>
      cases hb : db u with
      | none => simp [ha, hb] at h
      | some b =>
        refine ⟨a, b, rfl, rfl, ?_⟩
        by_contra hd
        simp [ha, hb, hd] at h

/-- What one accepted `set_val` does, for a key with metadata: it stores a checked value in checked units. -/
theorem avSet_ok (db : UnitDB) (rt : PyRT) (md : Dict String Meta) (s s' : NV) (k : String) (v : PVal)
    (u : Option String) (m : Meta) (hm : Dict.get? md k = some m)
    (h : avSet db rt md s k v u = .ok s') :
    ∃ w u', u = some u' ∧ castType rt m v = .ok w ∧ checkType m w = .ok () ∧
      checkCompat db m (some u') = .ok () ∧ s' = Dict.set s k (w, u') := by
  simp only [avSet, hm] at h
  cases hc : castType rt m v with
  | error e => simp [hc, bind, Except.bind] at h
  | ok w =>
    cases ht : checkType m w with
    | error e => simp [hc, ht, bind, Except.bind] at h
    | ok _ =>
      cases hu : checkCompat db m u with
      | error e => simp [hc, ht, hu, bind, Except.bind] at h
      | ok _ =>
        cases u with
        | none => simp [hc, ht, hu, bind, Except.bind, NV.setVal, NV.checkUnits] at h
        | some u' =>
          simp [hc, ht, hu, bind, Except.bind, NV.setVal, NV.checkUnits] at h
          exact ⟨w, u', rfl, rfl, ht, hu, h.symm⟩

/-- **C04 (partial).** After any history of `set_val` calls (accepted or rejected) on an empty
`AviaryValues`, every stored entry whose key has metadata is in units compatible with the metadata and its
value conforms to the declared types, object-dtype arrays excepted.  Missing from the full statement: object
arrays, of which only the first entry is checked (see `avRun_object_array_violated`). -/
theorem avRun_conforms_partial (db : UnitDB) (rt : PyRT) (md : Dict String Meta) (cs : List SetCall)
    (k u : String) (v : PVal) (m : Meta) (hm : Dict.get? md k = some m)
    (hk : Dict.get? (avRun db rt md cs) k = some (v, u)) :
    Compatible db m u ∧ (IsObjArray v ∨ Conforms m v) := by
  unfold avRun at hk
  have gen : ∀ (cs : List SetCall) (s : NV),
      (∀ v u, Dict.get? s k = some (v, u) → Compatible db m u ∧ (IsObjArray v ∨ Conforms m v)) →
      ∀ v u, Dict.get? (cs.foldl (avStep db rt md) s) k = some (v, u) →
        Compatible db m u ∧ (IsObjArray v ∨ Conforms m v) := by
    intro cs
    induction cs with
    | nil => intro s hs v u h; exact hs v u h
    | cons c cs ih =>
      intro s hs
      apply ih
      intro v u hv
      unfold avStep at hv
      cases ha : avSet db rt md s c.key c.val c.units with
      | error e => simp only [ha] at hv; exact hs v u hv
      | ok s' =>
        simp only [ha] at hv
        by_cases hck : c.key = k
        · obtain ⟨w, u', _, _, ht, hu, rfl⟩ := avSet_ok db rt md s s' c.key c.val c.units m (hck ▸ hm) ha
          rw [hck, Dict.get?_set_self] at hv
          cases hv
          exact ⟨checkCompat_ok db m u hu, checkType_conforms m v ht⟩
        · have : Dict.get? s' k = Dict.get? s k := by
            cases hmd : Dict.get? md c.key with
            | none =>
              simp only [avSet, hmd, NV.setVal, NV.checkUnits] at ha
              cases hcu : c.units with
              | none => simp [hcu, bind, Except.bind] at ha
              | some u0 =>
                simp [hcu, bind, Except.bind] at ha; subst ha
                exact Dict.get?_set_ne _ _ hck
            | some m' =>
              obtain ⟨w, u', _, _, _, _, rfl⟩ := avSet_ok db rt md s s' c.key c.val c.units m' hmd ha
              exact Dict.get?_set_ne _ _ hck
          rw [this] at hv; exact hs v u hv
  exact gen cs [] (by intro v u h; simp at h) v u hk

/-- A runtime that parses no text (used for witnesses only). -/
def noTextRT : PyRT := ⟨fun _ => none, fun _ => none, fun _ => "", fun _ => none⟩

/-- **C04 violated.** An object array with a text entry is accepted for a multi-valued `float` variable. -/
theorem avRun_object_array_violated :
    ∃ (md : Dict String Meta) (m : Meta) (v : PVal) (u : String),
      Dict.get? md "x" = some m ∧
      Dict.get? (avRun NV.exampleDB noTextRT md [⟨"x", v, some u⟩]) "x" = some (v, u) ∧ ¬ Conforms m v := by
  refine ⟨[("x", ⟨some [.float], true, "ft"⟩)], ⟨some [.float], true, "ft"⟩,
    .arrO [.float 1, .str "a"], "ft", by simp [Dict.get?], ?_, ?_⟩
  · simp [avRun, avStep, avSet, castType, checkType, checkCompat, isInstanceAny, isInstance, firstEnum,
      castLoop, castOne, callTy, noTextRT, bind, Except.bind, Dict.get?, isIterable, firstLeaf, itemOk,
      convertUnits, NV.exampleDB, NV.setVal, NV.checkUnits, Dict.set]
  · intro h
    have := (h [.float] rfl).1 (.str "a") (.inArrO (x := .str "a") (by simp) (.scalar rfl))
    obtain ⟨⟨t, ht, hi⟩, _⟩ := this
    simp at ht; subst ht; simp [isInstance] at hi

/-- **C04 (rejection).** A rejected call leaves the container as it was; a scalar that is not a `bool` is never
accepted for a variable that only takes `bool` (it is not cast); a key whose metadata declares no type
(`types=None`) can never be set, although `check_type` documents such variables as unrestricted. -/
theorem avSet_rejects (db : UnitDB) (rt : PyRT) (md : Dict String Meta) (s : NV) (c : SetCall) :
    (∀ e, avSet db rt md s c.key c.val c.units = .error e → avStep db rt md s c = s) ∧
    (∀ m, Dict.get? md c.key = some m → m.types = none →
      avSet db rt md s c.key c.val c.units = .error .typeError) ∧
    (c.units = none → ∃ e, avSet db rt md s c.key c.val c.units = .error e) ∧
    (∀ m, Dict.get? md c.key = some m → m.types = some [.bool] → isIterable c.val = false →
      (∀ b, c.val ≠ .bool b) → avSet db rt md s c.key c.val c.units = .error .typeError) := by
  refine ⟨?_, ?_, ?_, ?_⟩
  rotate_right
  · intro m hm ht hi hb
    have h1 : isInstance c.val .bool = false := by
      cases hv : c.val <;> simp_all [isInstance]
    have h2 : castOne rt .bool c.val = some c.val := by
      cases hv : c.val <;> simp_all [castOne, isIterable]
    have h3 : flattenVal c.val = [c.val] := by
      cases hv : c.val <;> simp_all [flattenVal, isIterable]
    have h4 : castType rt m c.val = .ok c.val := by
      simp [castType, ht, isInstanceAny, h1, firstEnum, castLoop, h2]
    have h5 : checkType m c.val = .error .typeError := by
      simp only [checkType, ht, hi, Bool.false_and, Bool.false_eq_true, if_false]
      cases hv : c.val <;> simp_all [itemOk, isInstanceAny, isInstance, flattenVal, isIterable]
    simp [avSet, hm, h4, h5, bind, Except.bind]
  · intro e h; simp [avStep, h]
  · intro m hm ht; simp [avSet, hm, castType, ht, bind, Except.bind]
  · intro hu
    cases h : avSet db rt md s c.key c.val c.units with
    | error e => exact ⟨e, rfl⟩
    | ok s' =>
      exfalso
      cases hmd : Dict.get? md c.key with
      | none => simp [avSet, hmd, NV.setVal, NV.checkUnits, hu, bind, Except.bind] at h
      | some m =>
        obtain ⟨w, u', h1, _⟩ := avSet_ok db rt md s s' c.key c.val c.units m hmd h
        rw [hu] at h1; cases h1

/-- **C04 (value kept).** A value that already has a declared type is stored as it is, and an integer given to
a variable whose first type is `float` (and that takes neither integers nor enum members) is stored as the
equal float: the first type whose cast works wins. -/
theorem avSet_value (db : UnitDB) (rt : PyRT) (md : Dict String Meta) (s s' : NV) (k u : String) (m : Meta)
    (ts : List Ty) (v : PVal) (hm : Dict.get? md k = some m) (hts : m.types = some ts)
    (h : avSet db rt md s k v (some u) = .ok s') :
    ((∃ t ∈ ts, isInstance v t = true) → Dict.get? s' k = some (v, u)) ∧
    (∀ (i : Int) rest, v = .int i → ts = .float :: rest → (∀ t ∈ rest, isInstance v t = false) →
      (∀ c, Ty.enum c ∉ rest) → Dict.get? s' k = some (.float i, u)) := by
  obtain ⟨w, u', hu, hc, _, _, rfl⟩ := avSet_ok db rt md s s' k v (some u) m hm h
  cases hu
  rw [Dict.get?_set_self]
  constructor
  · rintro ⟨t, ht, hi⟩
    have : isInstanceAny v ts = true := List.any_eq_true.2 ⟨t, ht, hi⟩
    simp [castType, hts, this] at hc
    rw [hc]
  · rintro i rest rfl rfl hr he
    have h1 : isInstanceAny (.int i) (.float :: rest) = false := by
      rw [isInstanceAny, List.any_eq_false]
      intro t ht
      rcases List.mem_cons.1 ht with rfl | ht
      · simp [isInstance]
      · simp [hr t ht]
    have h2 : ∀ l : List Ty, (∀ c, Ty.enum c ∉ l) → firstEnum l = none := by
      intro l
      induction l with
      | nil => intro _; rfl
      | cons t l ih =>
        intro h
        cases t with
        | enum c => exact absurd List.mem_cons_self (h c)
        | _ => exact ih fun c hc => h c (List.mem_cons_of_mem _ hc)
    simp only [castType, hts, h1, Bool.false_eq_true, if_false, firstEnum, h2 rest he, castLoop, castOne,
      callTy, Except.ok.injEq] at hc
    simp at hc
    rw [← hc]

example : ∃ s', avSet NV.exampleDB noTextRT [("x", ⟨some [.float], true, "ft"⟩)] [] "x"
    (.list [.int 1, .int 2]) (some "m") = .ok s' ∧
    Dict.get? s' "x" = some (.list [.float 1, .float 2], "m") := by
  refine ⟨Dict.set [] "x" (.list [.float 1, .float 2], "m"), ?_, ?_⟩
  rotate_left
  · exact Dict.get?_set_self [] "x" _
  · simp [avSet, castType, checkType, checkCompat, isInstanceAny, isInstance, firstEnum,
      castLoop, castOne, callTy, bind, Except.bind, Dict.get?, isIterable, flattenVal, flattenList, itemOk,
      convertUnits, NV.exampleDB, NV.setVal, NV.checkUnits, Dict.set]

end Verif
