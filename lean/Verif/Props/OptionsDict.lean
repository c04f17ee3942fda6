import Verif.Model.OptionsDict
import Verif.Props.AviaryValues

/-!
# Phase options with units

Stored values are in the declared units, reading in other units is one conversion from what was set, and writing a
dictionary out as `phase_info` and reading it again changes nothing.
-/

namespace Verif.POpt

variable (db : UnitDB) (valid : String → PVal → Bool)

theorem get?_set_self (d : Dict String Entry) (k : String) (e : Entry) : (d.set k e).get? k = some e := by
  induction d with
  | nil => simp [Dict.set, Dict.get?]
  | cons p d ih =>
    obtain ⟨k', e'⟩ := p
    by_cases h : k' = k
    · simp [Dict.set, Dict.get?, h]
    · simp [Dict.set, Dict.get?, h, ih]

theorem get?_set_other (d : Dict String Entry) (k j : String) (e : Entry) (hj : j ≠ k) :
    (d.set k e).get? j = d.get? j := by
  induction d with
  | nil => simp [Dict.set, Dict.get?, hj.symm]
  | cons p d ih =>
    obtain ⟨k', e'⟩ := p
    by_cases h : k' = k
    · subst h; simp [Dict.set, Dict.get?, hj.symm]
    · simp only [Dict.set, if_neg h, Dict.get?, ih]

theorem keys_set (d : Dict String Entry) (k : String) (e : Entry) (h : (d.get? k).isSome) :
    (d.set k e).map Prod.fst = d.map Prod.fst := by
  induction d with
  | nil => simp [Dict.get?] at h
  | cons p d ih =>
    obtain ⟨k', e'⟩ := p
    by_cases hk : k' = k
    · simp [Dict.set, hk]
    · simp only [Dict.get?, if_neg hk] at h
      simp [Dict.set, hk, ih h]

/-- What `units_setter` returns is a pair ending with the declared units. -/
theorem unitsSetter_units {u : String} {value r : PVal} (h : unitsSetter db u value = .ok r) :
    ∃ v, r = .tuple [v, .str u] := by
  unfold unitsSetter at h
  split at h
  · split at h
    · cases h; exact ⟨_, rfl⟩
    · revert h
      generalize wrappedConvert db _ _ u = c
      intro h
      cases c with
      | error e => cases h
      | ok w => cases h; exact ⟨w, rfl⟩
    · cases h
  · split at h
    · cases h; exact ⟨_, rfl⟩
    · revert h
      generalize wrappedConvert db _ _ u = c
      intro h
      cases c with
      | error e => cases h
      | ok w => cases h; exact ⟨w, rfl⟩
    · cases h
  all_goals cases h

/-- A setting that succeeds: the option is declared, and the stored entry is known. -/
theorem setItem_ok {d d' : Dict String Entry} {k : String} {value : PVal} (h : setItem db valid d k value = .ok d') :
    ∃ e v, d.get? k = some e ∧ d' = d.set k ⟨e.units, v⟩ ∧ valid k v = true ∧
      (match e.units with | some u => unitsSetter db u value = .ok v | none => v = value) := by
  unfold setItem at h
  cases he : d.get? k with
  | none => rw [he] at h; cases h
  | some e =>
    rw [he] at h
    simp only at h
    cases hu : e.units with
    | none =>
      rw [hu] at h
      simp only [bind, Except.bind] at h
      split_ifs at h with hv
      cases h
      exact ⟨e, value, rfl, by rw [hu], hv, by rw [hu]⟩
    | some u =>
      rw [hu] at h
      simp only [bind, Except.bind] at h
      cases hs : unitsSetter db u value with
      | error x => rw [hs] at h; cases h
      | ok v =>
        rw [hs] at h
        simp only at h
        split_ifs at h with hv
        cases h
        exact ⟨e, v, rfl, by rw [hu], hv, by rw [hu]; exact hs⟩

/-- Options are stored in their declared units. -/
def Wf (d : Dict String Entry) : Prop :=
  ∀ k e u, d.get? k = some e → e.units = some u → ∃ v, e.val = .tuple [v, .str u]

theorem setItem_wf {d d' : Dict String Entry} {k : String} {value : PVal} (hd : Wf d)
    (h : setItem db valid d k value = .ok d') : Wf d' := by
  obtain ⟨e, v, he, rfl, _, hv⟩ := setItem_ok db valid h
  intro j f u hj hu
  by_cases hjk : j = k
  · subst hjk
    rw [get?_set_self] at hj
    cases hj
    simp only at hu
    rw [hu] at hv
    exact unitsSetter_units db hv
  · rw [get?_set_other _ _ _ _ hjk] at hj
    exact hd j f u hj hu

theorem read_wf (data : List (String × PVal)) : ∀ (d d' : Dict String Entry), Wf d →
    read db valid d data = .ok d' → Wf d' := by
  induction data with
  | nil => intro d d' hd h; cases h; exact hd
  | cons p data ih =>
    intro d d' hd h
    rw [read] at h
    cases hl : legacy d p.1 p.2 with
    | error e => simp [hl, bind, Except.bind] at h
    | ok v =>
      cases hs : setItem db valid d p.1 v with
      | error e => simp [hl, hs, bind, Except.bind] at h
      | ok d1 =>
        simp only [hl, hs, bind, Except.bind] at h
        exact ih d1 d' (setItem_wf db valid hd hs) h

/-- Setting an option changes no other option, and the set of options stays the same. -/
theorem setItem_frame {d d' : Dict String Entry} {k : String} {value : PVal}
    (h : setItem db valid d k value = .ok d') :
    (∀ j, j ≠ k → d'.get? j = d.get? j) ∧ d'.map Prod.fst = d.map Prod.fst := by
  obtain ⟨e, v, he, rfl, _, _⟩ := setItem_ok db valid h
  exact ⟨fun j hj => get?_set_other _ _ _ _ hj, keys_set _ _ _ (by simp [he])⟩

/-- Reading an option in its own units after setting it gives the converted value. -/
theorem getVal_setItem {d d' : Dict String Entry} {k a u : String} {v : PVal} {e : Entry}
    (he : d.get? k = some e) (hu : e.units = some u) (h : setItem db valid d k (.tuple [v, .str a]) = .ok d') :
    getVal db d' k (some u) = wrappedConvert db v a u := by
  obtain ⟨e', w, he', rfl, _, hw⟩ := setItem_ok db valid h
  rw [he] at he'
  cases he'
  rw [hu] at hw
  simp only at hw
  unfold getVal
  rw [get?_set_self]
  simp only [hu]
  unfold unitsSetter at hw
  cases v <;> simp only [Except.map] at hw
  case none => cases hw; simp [wrappedConvert]
  all_goals
    split at hw
    · cases hw
    · cases hw; simp_all

/-- An option without units cannot be read in units, and without units every option is read as stored. -/
theorem getVal_bare {d : Dict String Entry} {k : String} {e : Entry} (he : d.get? k = some e) :
    (e.units = none → ∀ w, getVal db d k (some w) = .error .attributeError) ∧ getVal db d k none = .ok e.val := by
  unfold getVal
  rw [he]
  exact ⟨fun hu w => by simp only [hu], rfl⟩

/-- Conversions compose. -/
theorem convertUnits_trans (hdb : db.Sane) {a u w : String} {x y : ℚ} (ha : a ≠ "") (hu : u ≠ "") (hw : w ≠ "")
    (h : convertUnits db x a u = .ok y) : convertUnits db y u w = convertUnits db x a w := by
  unfold convertUnits at *
  simp only [ha, hu, hw, or_self, if_false] at *
  cases hA : db a with
  | none => simp [hA] at h
  | some A =>
    cases hU : db u with
    | none => simp [hA, hU] at h
    | some U =>
      simp only [hA, hU] at h ⊢
      split_ifs at h with hd
      cases h
      cases hW : db w with
      | none => rfl
      | some W =>
        simp only [hd]
        split_ifs with hd'
        · have := hdb _ _ hA
          have := hdb _ _ hU
          have := hdb _ _ hW
          congr 1
          field_simp
          ring
        · rfl

/-- Reading a number in any units is a single conversion from the units in which it was set. -/
theorem getVal_any_units (hdb : db.Sane) {d d' : Dict String Entry} {k a u w : String} {x : ℚ} {e : Entry}
    (ha : a ≠ "") (hu0 : u ≠ "") (hw : w ≠ "") (he : d.get? k = some e) (hu : e.units = some u)
    (h : setItem db valid d k (.tuple [.float x, .str a]) = .ok d') :
    getVal db d' k (some w) = wrappedConvert db (.float x) a w := by
  by_cases hwu : w = u
  · subst hwu; exact getVal_setItem db valid he hu h
  obtain ⟨e', v, he', rfl, _, hv⟩ := setItem_ok db valid h
  rw [he] at he'
  cases he'
  rw [hu] at hv
  simp only at hv
  unfold getVal
  rw [get?_set_self]
  simp only [hu]
  simp only [unitsSetter, wrappedConvert, convertLeaf, ha, hu0, or_self, if_false] at hv
  cases hc : convertUnits db x a u with
  | error e => simp [hc, Except.map] at hv
  | ok y =>
    simp only [hc, Except.map] at hv
    cases hv
    simp only [if_neg hwu, wrappedConvert, convertLeaf, ha, hu0, hw, or_self, if_false]
    rw [convertUnits_trans db hdb ha hu0 hw hc]

/-- A value that a conversion to its own units leaves as it is. -/
def Stable (u : String) (v : PVal) : Prop := wrappedConvert db v u u = .ok v

theorem convertUnits_self (hdb : db.Sane) {a u : String} {x y : ℚ} (ha : a ≠ "") (hu : u ≠ "")
    (h : convertUnits db x a u = .ok y) (z : ℚ) : convertUnits db z u u = .ok z := by
  unfold convertUnits at *
  simp only [ha, hu, or_self, if_false] at *
  cases hA : db a with
  | none => simp [hA] at h
  | some A =>
    cases hU : db u with
    | none => simp [hA, hU] at h
    | some U =>
      have := hdb _ _ hU
      simp only [if_true]
      congr 1
      field_simp
      ring

/-- What a leaf is converted to. -/
theorem convertLeaf_float {a u : String} (ha : a ≠ "") (hu : u ≠ "") {v w : PVal} (h : convertLeaf db v a u = .ok w) :
    ∃ x y, w = .float y ∧ convertUnits db x a u = .ok y := by
  unfold convertLeaf at h
  simp only [ha, hu, or_self, if_false] at h
  split at h
  case h_4 => split at h <;> cases h
  all_goals
    rename_i x
    first
      | (cases hc : convertUnits db (x : ℚ) a u with
          | error e => simp [hc, Except.map] at h
          | ok y => simp only [hc, Except.map] at h; cases h; exact ⟨_, y, rfl, hc⟩)
      | (cases hc : convertUnits db (if x then 1 else 0) a u with
          | error e => simp [hc, Except.map] at h
          | ok y => simp only [hc, Except.map] at h; cases h; exact ⟨_, y, rfl, hc⟩)

theorem convertLeaf_self (hdb : db.Sane) {a u : String} (ha : a ≠ "") (hu : u ≠ "") {v w : PVal}
    (h : convertLeaf db v a u = .ok w) : convertLeaf db w u u = .ok w := by
  obtain ⟨x, y, rfl, hc⟩ := convertLeaf_float db ha hu h
  simp only [convertLeaf, hu, or_self, if_false, convertUnits_self db hdb ha hu hc y, Except.map]

theorem convertItems_self (hdb : db.Sane) {a u : String} (ha : a ≠ "") (hu : u ≠ "") (xs : List PVal) :
    ∀ ys, convertItems db a u xs = .ok ys → convertItems db u u ys = .ok ys := by
  induction xs with
  | nil => intro ys h; cases h; rfl
  | cons x xs ih =>
    intro ys h
    by_cases hx : x = .none
    · subst hx
      simp only [convertItems, bind, Except.bind] at h
      cases hr : convertItems db a u xs with
      | error e => simp [hr] at h
      | ok zs =>
        simp only [hr] at h
        cases h
        simp [convertItems, ih zs hr, bind, Except.bind]
    · rw [convertItems.eq_3 db a u x xs hx] at h
      simp only [bind, Except.bind] at h
      cases hl : convertLeaf db x a u with
      | error e => simp [hl] at h
      | ok y =>
        cases hr : convertItems db a u xs with
        | error e => simp [hl, hr] at h
        | ok zs =>
          simp only [hl, hr] at h
          cases h
          have hy : y ≠ .none := by
            obtain ⟨_, q, rfl, _⟩ := convertLeaf_float db ha hu hl
            simp
          rw [convertItems.eq_3 db u u y zs hy]
          simp [convertLeaf_self db hdb ha hu hl, ih zs hr, bind, Except.bind]

theorem mapM_self (f : ℚ → Except Err ℚ) (hf : ∀ x y, f x = .ok y → ∀ z, convertUnits db z u u = .ok z) (xs : List ℚ) :
    ∀ ys, xs.mapM f = .ok ys → ys.mapM (fun q => convertUnits db q u u) = .ok ys := by
  induction xs with
  | nil => intro ys h; cases h; rfl
  | cons x xs ih =>
    intro ys h
    rw [List.mapM_cons] at h
    cases h1 : f x with
    | error e => simp [h1, bind, Except.bind] at h
    | ok y =>
      cases h2 : xs.mapM f with
      | error e => simp [h1, h2, bind, Except.bind] at h
      | ok zs =>
        simp only [h1, h2, bind, Except.bind, pure, Except.pure] at h
        cases h
        rw [List.mapM_cons, hf x y h1 y, ih zs h2]
        rfl

theorem truncToInt_int (i : ℤ) : truncToInt (i : ℚ) = i := by
  unfold truncToInt
  split_ifs <;> simp

/-- The result of any conversion between named units is stable. -/
theorem converted_stable (hdb : db.Sane) {a u : String} (ha : a ≠ "") (hu : u ≠ "") {v w : PVal}
    (h : wrappedConvert db v a u = .ok w) : Stable db u w := by
  unfold Stable
  cases v with
  | none => cases h; rfl
  | list xs =>
    simp only [wrappedConvert] at h
    cases hc : convertItems db a u xs with
    | error e => simp [hc, Except.map] at h
    | ok ys =>
      simp only [hc, Except.map] at h
      cases h
      simp [wrappedConvert, convertItems_self db hdb ha hu xs ys hc, Except.map]
  | tuple xs =>
    simp only [wrappedConvert] at h
    cases hc : convertItems db a u xs with
    | error e => simp [hc, Except.map] at h
    | ok ys =>
      simp only [hc, Except.map] at h
      cases h
      simp [wrappedConvert, convertItems_self db hdb ha hu xs ys hc, Except.map]
  | arrO xs =>
    simp only [wrappedConvert] at h
    cases hc : convertItems db a u xs with
    | error e => simp [hc, Except.map] at h
    | ok ys =>
      simp only [hc, Except.map] at h
      cases h
      simp [wrappedConvert, convertItems_self db hdb ha hu xs ys hc, Except.map]
  | arrF xs =>
    simp only [wrappedConvert] at h
    cases hc : xs.mapM (fun q => convertUnits db q a u) with
    | error e => simp [hc, Except.map] at h
    | ok ys =>
      simp only [hc, Except.map] at h
      cases h
      have := mapM_self db (u := u) (fun q => convertUnits db q a u)
        (fun x y hxy => convertUnits_self db hdb ha hu hxy) xs ys hc
      simp [wrappedConvert, this, Except.map]
  | arrI xs =>
    simp only [wrappedConvert] at h
    cases hc : xs.mapM (fun i : ℤ => (convertUnits db (i : ℚ) a u).map truncToInt) with
    | error e => rw [hc] at h; cases h
    | ok ys =>
      rw [hc] at h
      cases h
      have : ys.mapM (fun i : ℤ => (convertUnits db (i : ℚ) u u).map truncToInt) = .ok ys := by
        induction xs generalizing ys with
        | nil => cases hc; rfl
        | cons x xs ih =>
          rw [List.mapM_cons] at hc
          cases h1 : convertUnits db (x : ℚ) a u with
          | error e => simp [h1, bind, Except.bind, Except.map] at hc
          | ok y =>
            cases h2 : xs.mapM (fun i : ℤ => (convertUnits db (i : ℚ) a u).map truncToInt) with
            | error e => rw [h1, h2] at hc; cases hc
            | ok zs =>
              rw [h1, h2] at hc
              cases hc
              rw [List.mapM_cons, convertUnits_self db hdb ha hu h1, ih zs h2]
              simp [Except.map, bind, Except.bind, pure, Except.pure, truncToInt_int]
      simp only [wrappedConvert]
      rw [this]
      rfl
  | bool b => exact convertLeaf_stable db hdb ha hu h
  | int b => exact convertLeaf_stable db hdb ha hu h
  | float b => exact convertLeaf_stable db hdb ha hu h
  | str b => exact convertLeaf_stable db hdb ha hu h
  | enum c m => exact convertLeaf_stable db hdb ha hu h
where
  convertLeaf_stable (db : UnitDB) (hdb : db.Sane) {a u : String} (ha : a ≠ "") (hu : u ≠ "") {v w : PVal}
      (h : convertLeaf db v a u = .ok w) : wrappedConvert db w u u = .ok w := by
    have := convertLeaf_self db hdb ha hu h
    obtain ⟨_, y, rfl, _⟩ := convertLeaf_float db ha hu h
    exact this

/-- An entry that reading leaves as it is: stable in its units, or, without units, not of the legacy form. -/
def Fixed (e : Entry) : Prop :=
  match e.units with
  | some u => ∃ v, e.val = .tuple [v, .str u] ∧ Stable db u v
  | none => ∀ xs, e.val = .tuple xs → 2 ≤ xs.length ∧ xs[1]? ≠ some (.str "unitless")

theorem read_suffix (rest : Dict String Entry) : ∀ (pre rest0 : Dict String Entry),
    List.Forall₂ (fun p q => p.1 = q.1 ∧ p.2.units = q.2.units) rest0 rest →
    ((pre ++ rest0).map Prod.fst).Nodup → (∀ p ∈ rest, Fixed db p.2 ∧ valid p.1 p.2.val = true) →
    read db valid (pre ++ rest0) (toPhaseInfo rest) = .ok (pre ++ rest) := by
  induction rest with
  | nil => intro pre rest0 h _ _; cases h; rfl
  | cons p rest ih =>
    intro pre rest0 h hn hv
    obtain ⟨k, e⟩ := p
    cases h with
    | @cons q _ r0 _ hq hr =>
      obtain ⟨k', e0⟩ := q
      obtain ⟨hk, hu⟩ := hq
      simp only at hk hu
      subst hk
      have hk : k' ∉ pre.map Prod.fst := by
        intro hm
        rw [List.map_append, List.nodup_append] at hn
        exact hn.2.2 _ hm k' (by simp) rfl
      have hget : ∀ (f : Entry) (l : Dict String Entry), Dict.get? (pre ++ (k', f) :: l) k' = some f := by
        intro f l
        clear hn ih
        induction pre with
        | nil => simp [Dict.get?]
        | cons a pre iha =>
          simp only [List.map_cons, List.mem_cons, not_or] at hk
          simp only [List.cons_append, Dict.get?]
          rw [if_neg (fun h => hk.1 h.symm), iha hk.2]
      have hset : ∀ (f g : Entry) (l : Dict String Entry), Dict.set (pre ++ (k', f) :: l) k' g = pre ++ (k', g) :: l := by
        intro f g l
        clear hn ih hget
        induction pre with
        | nil => simp [Dict.set]
        | cons a pre iha =>
          simp only [List.map_cons, List.mem_cons, not_or] at hk
          simp only [List.cons_append, Dict.set]
          rw [if_neg (fun h => hk.1 h.symm), iha hk.2]
      obtain ⟨hfix, hval⟩ := hv (k', e) (by simp)
      simp only at hfix hval
      have hleg : legacy (pre ++ (k', e0) :: r0) k' e.val = .ok e.val := by
        unfold legacy
        split
        · rename_i xs hxs
          rw [hget]
          simp only
          cases he : e.units with
          | some u => rw [he] at hu; rw [hu, hxs]
          | none =>
            rw [he] at hu
            rw [hu]
            simp only
            unfold Fixed at hfix
            rw [he] at hfix
            obtain ⟨h2, h1⟩ := hfix xs hxs
            match xs, h2, h1 with
            | x :: y :: r, _, h1 =>
              split
              · rename_i heq
                simp only [List.cons.injEq] at heq
                exact absurd (by simp [heq.2.1]) h1
              · rw [hxs]
              · rename_i hno; exact absurd rfl (hno x y r)
        · rfl
      have hsetit : setItem db valid (pre ++ (k', e0) :: r0) k' e.val = .ok (pre ++ (k', e) :: r0) := by
        unfold setItem
        rw [hget]
        simp only
        cases he : e.units with
        | none =>
          rw [he] at hu
          rw [hu]
          simp only [bind, Except.bind]
          rw [if_pos hval, hset]
          congr 4
          cases e; simp_all
        | some u =>
          rw [he] at hu
          unfold Fixed at hfix
          rw [he] at hfix
          obtain ⟨v, hev, hst⟩ := hfix
          have hs : unitsSetter db u e.val = .ok e.val := by
            rw [hev]
            unfold Stable at hst
            cases v <;> simp [unitsSetter, hst, Except.map]
          rw [hu]
          simp only [hs, bind, Except.bind]
          rw [if_pos hval, hset]
          congr 4
          cases e; simp_all
      rw [toPhaseInfo, List.map_cons, read]
      simp only [hleg, hsetit, bind, Except.bind]
      have := ih (pre ++ [(k', e)]) r0 hr (by simpa using hn) (fun p hp => hv p (by simp [hp]))
      simpa [toPhaseInfo] using this

/-- Reading the written `phase_info` into the same declared options gives the dictionary back. -/
theorem roundtrip (d0 d : Dict String Entry)
    (hdecl : List.Forall₂ (fun p q => p.1 = q.1 ∧ p.2.units = q.2.units) d0 d) (hn : (d0.map Prod.fst).Nodup)
    (hv : ∀ p ∈ d, Fixed db p.2 ∧ valid p.1 p.2.val = true) :
    read db valid d0 (toPhaseInfo d) = .ok d := read_suffix db valid d [] d0 hdecl hn hv

/-- A value of the legacy form that is nested is not kept. -/
theorem roundtrip_violated : ∃ d0 d1 d2 : Dict String Entry, ∃ data : List (String × PVal),
    read db (fun _ _ => true) d0 data = .ok d1 ∧ read db (fun _ _ => true) d0 (toPhaseInfo d1) = .ok d2 ∧
    (∃ x, d1.get? "o" = some ⟨none, .tuple [x, .str "unitless"]⟩) ∧ d2.get? "o" = some ⟨none, .int 1⟩ := by
  refine ⟨[("o", ⟨none, .int 0⟩)], _, _, [("o", .tuple [.tuple [.int 1, .str "unitless"], .str "unitless"])],
    rfl, rfl, ⟨.int 1, rfl⟩, rfl⟩

/-- `None` as the value of an option with units is refused, although such options are declared with `allow_none`. -/
theorem setItem_none_violated (d : Dict String Entry) (k u : String) (e : Entry) (he : d.get? k = some e)
    (hu : e.units = some u) : setItem db valid d k .none = .error .typeError := by
  simp [setItem, he, hu, unitsSetter, bind, Except.bind]

/-- A tuple with fewer than two entries, as value of an option without units, is an error while reading. -/
theorem read_short_tuple_violated (d : Dict String Entry) (k : String) (e : Entry) (x : PVal) (he : d.get? k = some e)
    (hu : e.units = none) : read db valid d [(k, .tuple [x])] = .error .indexError := by
  simp [read, legacy, he, hu, bind, Except.bind]

/-- Options that are not declared cannot be set. -/
theorem setItem_undeclared (d : Dict String Entry) (k : String) (v : PVal) (h : d.get? k = none) :
    setItem db valid d k v = .error .keyError := by simp [setItem, h]

/-- Two phase options, one in metres and one without units, meet the hypotheses of `roundtrip`. -/
example : ∃ (db : UnitDB) (d0 d : Dict String Entry), db.Sane ∧
    List.Forall₂ (fun p q => p.1 = q.1 ∧ p.2.units = q.2.units) d0 d ∧ (d0.map Prod.fst).Nodup ∧
    (∀ p ∈ d, Fixed db p.2) ∧ d ≠ [] := by
  refine ⟨fun s => if s = "m" then some ⟨1, 1, 0⟩ else none,
    [("altitude_ref", ⟨some "m", .tuple [.float 1, .str "m"]⟩), ("order", ⟨none, .int 3⟩)],
    [("altitude_ref", ⟨some "m", .tuple [.float 10, .str "m"]⟩), ("order", ⟨none, .int 3⟩)], ?_, ?_, by decide, ?_, by simp⟩
  · intro s u h
    simp only at h
    split_ifs at h
    cases h; norm_num
  · exact .cons ⟨rfl, rfl⟩ (.cons ⟨rfl, rfl⟩ .nil)
  · intro p hp
    simp only [List.mem_cons, List.not_mem_nil, or_false] at hp
    rcases hp with rfl | rfl
    · refine ⟨.float 10, rfl, ?_⟩
      simp [Stable, wrappedConvert, convertLeaf, convertUnits, Except.map]
    · intro xs h; cases h

end Verif.POpt
