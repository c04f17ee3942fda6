import Verif.Model.Dict

/-! Helper lemmas about the ordered dictionary. -/

namespace Verif.Dict
variable {κ α : Type} [DecidableEq κ]

@[simp] theorem get?_nil (k : κ) : get? ([] : Dict κ α) k = none := rfl

theorem get?_set (d : Dict κ α) (k k' : κ) (v : α) :
    (d.set k v).get? k' = if k = k' then some v else d.get? k' := by
  induction d with
  | nil => simp [set, get?]
  | cons p d ih =>
    obtain ⟨a, b⟩ := p
    simp only [set]
    by_cases h : a = k
    · subst h; by_cases h2 : a = k' <;> simp [get?, h2]
    · by_cases h2 : a = k'
      · subst h2; simp [get?, h, Ne.symm h]
      · simp [get?, h, h2, ih]

@[simp] theorem get?_set_self (d : Dict κ α) (k : κ) (v : α) : (d.set k v).get? k = some v := by
  simp [get?_set]

theorem get?_set_ne (d : Dict κ α) {k k' : κ} (v : α) (h : k ≠ k') :
    (d.set k v).get? k' = d.get? k' := by simp [get?_set, h]

theorem get?_eq_none_iff (d : Dict κ α) (k : κ) : d.get? k = none ↔ k ∉ d.keys := by
  induction d with
  | nil => simp [keys]
  | cons p d ih =>
    obtain ⟨a, b⟩ := p
    by_cases h : a = k
    · simp [get?, keys, h]
    · simp only [get?, h, if_false, ih, keys, List.map_cons, List.mem_cons]
      constructor
      · rintro h1 (h2 | h2)
        · exact h h2.symm
        · exact h1 h2
      · exact fun h1 h2 => h1 (Or.inr h2)

theorem get?_isSome_iff (d : Dict κ α) (k : κ) : (d.get? k).isSome ↔ k ∈ d.keys := by
  have := get?_eq_none_iff d k
  cases h : d.get? k <;> simp_all

theorem mem_of_get? (d : Dict κ α) {k : κ} {v : α} (h : d.get? k = some v) : (k, v) ∈ d := by
  induction d with
  | nil => simp at h
  | cons p d ih =>
    obtain ⟨a, b⟩ := p
    by_cases h2 : a = k
    · simp [get?, h2] at h; simp [h, h2]
    · simp [get?, h2] at h; exact List.mem_cons_of_mem _ (ih h)

theorem get?_of_mem (d : Dict κ α) (hd : d.keys.Nodup) {k : κ} {v : α} (h : (k, v) ∈ d) :
    d.get? k = some v := by
  induction d with
  | nil => simp at h
  | cons p d ih =>
    obtain ⟨a, b⟩ := p
    simp only [keys, List.map_cons, List.nodup_cons] at hd
    rcases List.mem_cons.1 h with h | h
    · cases h; simp [get?]
    · have : a ≠ k := by
        rintro rfl; exact hd.1 (List.mem_map.2 ⟨_, h, rfl⟩)
      simp [get?, this]; exact ih hd.2 h

theorem keys_set (d : Dict κ α) (k : κ) (v : α) :
    (d.set k v).keys = if k ∈ d.keys then d.keys else d.keys ++ [k] := by
  induction d with
  | nil => simp [set, keys]
  | cons p d ih =>
    obtain ⟨a, b⟩ := p
    by_cases h : a = k
    · subst h; simp [set, keys]
    · have h' : ¬ k = a := fun e => h e.symm
      have e1 : (set ((a, b) :: d) k v).keys = a :: keys (set d k v) := by simp [set, keys, h]
      have e2 : keys ((a, b) :: d) = a :: keys d := rfl
      rw [e1, e2, ih]
      by_cases h2 : k ∈ keys d <;> simp [h2, h']

theorem nodup_set (d : Dict κ α) (k : κ) (v : α) (h : d.keys.Nodup) : (d.set k v).keys.Nodup := by
  rw [keys_set]; split
  · exact h
  · rename_i h2
    rw [List.nodup_append]
    refine ⟨h, by simp, ?_⟩
    intro a ha b hb
    simp at hb; subst hb; exact fun e => h2 (e ▸ ha)

theorem keys_erase (d : Dict κ α) (k : κ) : (d.erase k).keys = d.keys.erase k := by
  induction d with
  | nil => simp [erase, keys]
  | cons p d ih =>
    obtain ⟨a, b⟩ := p
    by_cases h : a = k
    · subst h; simp [erase, keys]
    · have h2 : (a == k) = false := by simpa using h
      simp only [keys] at ih
      simp [erase, keys, h, h2, ih]

theorem nodup_erase (d : Dict κ α) (k : κ) (h : d.keys.Nodup) : (d.erase k).keys.Nodup := by
  rw [keys_erase]; exact h.erase k

theorem get?_erase (d : Dict κ α) (hd : d.keys.Nodup) (k k' : κ) :
    (d.erase k).get? k' = if k = k' then none else d.get? k' := by
  induction d with
  | nil => simp [erase]
  | cons p d ih =>
    obtain ⟨a, b⟩ := p
    have hd' := hd
    simp only [keys, List.map_cons, List.nodup_cons] at hd
    by_cases h : a = k
    · subst h
      by_cases h2 : a = k'
      · subst h2
        simp only [erase, if_true]
        exact (get?_eq_none_iff d a).2 hd.1
      · simp [erase, get?, h2]
    · by_cases h2 : a = k'
      · subst h2; simp [erase, get?, h, Ne.symm h]
      · simp [erase, get?, h, h2, ih hd.2]

end Verif.Dict
