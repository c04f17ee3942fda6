import Mathlib.Tactic.FieldSimp
import Mathlib.Tactic.Ring
import Mathlib.Tactic.Linarith
import Mathlib.Tactic.NormNum
import Mathlib.Data.List.Basic
import Verif.Lemmas.Dict
import Verif.Model.Turboprop
import Verif.Props.PropMission

/-! Turboprop engine models (C109). -/

namespace Verif.Turboprop

open Verif (Dict Err)
open Verif.PropMission (update combine)

/-! ## C109 Turboprop engine models -/

theorem mem_drop (l : List Name) (v w : Name) : w ∈ drop l v ↔ w ∈ l ∧ w ≠ v := by
  simp [drop]

theorem inn_inj {a b : Name} (h : inn a = inn b) : a = b := List.append_cancel_right h

theorem isOut_out (v : Name) : isOut (out v) = true ∧ base (out v) = v := by
  have h : (out v).length - 4 = v.length := by simp [out]
  constructor
  · rw [isOut, h]; simp [out]
  · rw [base, h]; simp [out]

theorem out_base {v : Name} (h : isOut v = true) : out (base v) = v := by
  simp only [isOut, beq_iff_eq] at h
  unfold out base
  rw [← h, List.take_append_drop]

/-- Without a gearbox nothing can be configured. -/
theorem configure_gearless_violated (fixed : Bool) (l : Lists) :
    configure false fixed l = .error .unboundLocal := rfl

/-- The ends of the connections. -/
def dests (s : St) : List Port := s.conns.map Prod.snd

/-- Nothing is connected twice and nothing connected is left to do. -/
structure Inv (s : St) : Prop where
  nodup : (dests s).Nodup
  gear : ∀ v, .gear v ∈ dests s → v ∉ s.gearIn
  prop : ∀ v, .prop v ∈ dests s → v ∉ s.propIn
  shp : ∀ v, .shp v ∈ dests s → v ∉ s.shpIn
  sumShaft : .sumShaft ∈ dests s → thrust ∉ s.shpOut
  sumProp : .sumProp ∈ dests s → thrust ∉ s.propOut

/-- Adding one connection to a free end keeps the invariant if the state forgets that end. -/
theorem inv_add {s t : St} (h : Inv s) (src dst : Port) (hc : t.conns = s.conns ++ [(src, dst)])
    (hfresh : dst ∉ dests s)
    (hg : ∀ v, v ∈ t.gearIn → v ∈ s.gearIn ∧ dst ≠ .gear v)
    (hp : ∀ v, v ∈ t.propIn → v ∈ s.propIn ∧ dst ≠ .prop v)
    (hs : ∀ v, v ∈ t.shpIn → v ∈ s.shpIn ∧ dst ≠ .shp v)
    (h5 : thrust ∈ t.shpOut → thrust ∈ s.shpOut ∧ dst ≠ .sumShaft)
    (h6 : thrust ∈ t.propOut → thrust ∈ s.propOut ∧ dst ≠ .sumProp) : Inv t := by
  have hd : dests t = dests s ++ [dst] := by simp [dests, hc]
  constructor
  · rw [hd, List.nodup_append]
    refine ⟨h.nodup, by simp, ?_⟩
    intro a ha b hb
    simp only [List.mem_singleton] at hb
    subst hb
    rintro rfl
    exact hfresh ha
  · intro v hv hm
    rw [hd, List.mem_append, List.mem_singleton] at hv
    rcases hv with hv | hv
    · exact h.gear v hv (hg v hm).1
    · exact (hg v hm).2 hv.symm
  · intro v hv hm
    rw [hd, List.mem_append, List.mem_singleton] at hv
    rcases hv with hv | hv
    · exact h.prop v hv (hp v hm).1
    · exact (hp v hm).2 hv.symm
  · intro v hv hm
    rw [hd, List.mem_append, List.mem_singleton] at hv
    rcases hv with hv | hv
    · exact h.shp v hv (hs v hm).1
    · exact (hs v hm).2 hv.symm
  · intro hv hm
    rw [hd, List.mem_append, List.mem_singleton] at hv
    rcases hv with hv | hv
    · exact h.sumShaft hv (h5 hm).1
    · exact (h5 hm).2 hv.symm
  · intro hv hm
    rw [hd, List.mem_append, List.mem_singleton] at hv
    rcases hv with hv | hv
    · exact h.sumProp hv (h6 hm).1
    · exact (h6 hm).2 hv.symm

/-- Forgetting keeps the invariant. -/
theorem inv_less {s t : St} (h : Inv s) (hc : t.conns = s.conns)
    (hg : ∀ v, v ∈ t.gearIn → v ∈ s.gearIn) (hp : ∀ v, v ∈ t.propIn → v ∈ s.propIn)
    (hs : ∀ v, v ∈ t.shpIn → v ∈ s.shpIn) (h5 : thrust ∈ t.shpOut → thrust ∈ s.shpOut)
    (h6 : thrust ∈ t.propOut → thrust ∈ s.propOut) : Inv t := by
  have hd : dests t = dests s := by simp [dests, hc]
  constructor
  · rw [hd]; exact h.nodup
  · intro v hv hm; exact h.gear v (hd ▸ hv) (hg v hm)
  · intro v hv hm; exact h.prop v (hd ▸ hv) (hp v hm)
  · intro v hv hm; exact h.shp v (hd ▸ hv) (hs v hm)
  · intro hv hm; exact h.sumShaft (hd ▸ hv) (h5 hm)
  · intro hv hm; exact h.sumProp (hd ▸ hv) (h6 hm)

theorem inv_shpThrust {s : St} (h : Inv s) : Inv (shpThrust s) := by
  unfold shpThrust
  split
  · rename_i hm
    refine inv_add h _ _ rfl (fun hc => h.sumShaft hc hm) ?_ ?_ ?_ ?_ ?_
    · intros; refine ⟨by assumption, by simp⟩
    · intros; refine ⟨by assumption, by simp⟩
    · intros; refine ⟨by assumption, by simp⟩
    · intro hv; rw [mem_drop] at hv; exact absurd rfl hv.2
    · intros; refine ⟨by assumption, by simp⟩
  · exact h

theorem inv_gearLink {s : St} (v : Name) (h : Inv s) : Inv (gearLink s v) := by
  have h' : Inv (if v ∈ s.gearOut ∨ out v ∈ s.gearOut ∧ v ≠ rpm then { s with shpOut := drop s.shpOut v } else s) := by
    split
    · exact inv_less h rfl (fun _ => id) (fun _ => id) (fun _ => id) (fun hm => ((mem_drop _ _ _).1 hm).1) id
    · exact h
  unfold gearLink
  simp only
  revert h'
  generalize (if v ∈ s.gearOut ∨ out v ∈ s.gearOut ∧ v ≠ rpm then { s with shpOut := drop s.shpOut v } else s) = t
  intro h'
  split
  · rename_i hv
    refine inv_add h' _ _ rfl (fun hc => h'.gear _ hc hv.1) ?_ ?_ ?_ ?_ ?_
    · intro v hv; rw [mem_drop] at hv; exact ⟨hv.1, fun he => hv.2 (by simpa using he.symm)⟩
    all_goals (intros; refine ⟨by assumption, by simp⟩)
  · exact h'

theorem inv_rpmFixed {s : St} (h : Inv s) : Inv (rpmFixed s) := by
  unfold rpmFixed
  simp only
  have h1 : Inv (if rpm ∈ s.shpOut then
      { s with shpOutputs := s.shpOutputs ++ [(rpm, override)], shpOut := drop s.shpOut rpm } else s) := by
    split
    · exact inv_less h rfl (fun _ => id) (fun _ => id) (fun _ => id) (fun hm => ((mem_drop _ _ _).1 hm).1) id
    · exact h
  revert h1
  generalize (if rpm ∈ s.shpOut then
      { s with shpOutputs := s.shpOutputs ++ [(rpm, override)], shpOut := drop s.shpOut rpm } else s) = t
  intro h1
  have h2 : Inv (if inn rpm ∈ t.gearIn then
      { t with conns := t.conns ++ [(.rpmSource, .gear (inn rpm))], gearIn := drop t.gearIn (inn rpm) }
      else { t with rpmAll := true }) := by
    split
    · rename_i hm
      refine inv_add h1 _ _ rfl (fun hc => h1.gear _ hc hm) ?_ ?_ ?_ ?_ ?_
      · intro v hv; rw [mem_drop] at hv; exact ⟨hv.1, fun he => hv.2 (by simpa using he.symm)⟩
      all_goals (intros; refine ⟨by assumption, by simp⟩)
    · exact inv_less h1 rfl (fun _ => id) (fun _ => id) (fun _ => id) id id
  revert h2
  generalize (if inn rpm ∈ t.gearIn then
      { t with conns := t.conns ++ [(.rpmSource, .gear (inn rpm))], gearIn := drop t.gearIn (inn rpm) }
      else { t with rpmAll := true }) = u
  intro h2
  split
  · rename_i hm
    refine inv_add h2 _ _ rfl (fun hc => h2.shp _ hc hm) ?_ ?_ ?_ ?_ ?_
    · intros; refine ⟨by assumption, by simp⟩
    · intros; refine ⟨by assumption, by simp⟩
    · intro v hv; rw [mem_drop] at hv; exact ⟨hv.1, fun he => hv.2 (by simpa using he.symm)⟩
    all_goals (intros; refine ⟨by assumption, by simp⟩)
  · exact h2

theorem inv_rpmFree {s : St} (h : Inv s) : Inv (rpmFree s) := by
  unfold rpmFree
  simp only
  have h1 : Inv (if rpm ∉ s.shpOut ∧ (rpm ∈ s.shpIn ∨ inn rpm ∈ s.gearIn ∨ rpm ∈ s.propIn) then
      { s with rpmControl := true } else s) := by
    split
    · exact inv_less h rfl (fun _ => id) (fun _ => id) (fun _ => id) id id
    · exact h
  revert h1
  generalize (if rpm ∉ s.shpOut ∧ (rpm ∈ s.shpIn ∨ inn rpm ∈ s.gearIn ∨ rpm ∈ s.propIn) then
      { s with rpmControl := true } else s) = t
  intro h1
  have h2 : Inv (if rpm ∈ t.shpIn then
      { t with conns := t.conns ++ [(.rpmSource, .shp rpm)], shpIn := drop t.shpIn rpm } else t) := by
    split
    · rename_i hm
      refine inv_add h1 _ _ rfl (fun hc => h1.shp _ hc hm) ?_ ?_ ?_ ?_ ?_
      · intros; refine ⟨by assumption, by simp⟩
      · intros; refine ⟨by assumption, by simp⟩
      · intro v hv; rw [mem_drop] at hv; exact ⟨hv.1, fun he => hv.2 (by simpa using he.symm)⟩
      all_goals (intros; refine ⟨by assumption, by simp⟩)
    · exact h1
  revert h2
  generalize (if rpm ∈ t.shpIn then
      { t with conns := t.conns ++ [(.rpmSource, .shp rpm)], shpIn := drop t.shpIn rpm } else t) = u
  intro h2
  have h3 : Inv (if inn rpm ∈ u.gearIn then
      if rpm ∈ u.shpOut then
        { u with conns := u.conns ++ [(.shp rpm, .gear (inn rpm))]
                 gearIn := drop u.gearIn (inn rpm), shpOut := drop u.shpOut rpm }
      else
        { u with conns := u.conns ++ [(.rpmSource, .gear (inn rpm))], gearIn := drop u.gearIn (inn rpm) }
      else u) := by
    split
    · rename_i hm
      split
      · refine inv_add h2 _ _ rfl (fun hc => h2.gear _ hc hm) ?_ ?_ ?_ ?_ ?_
        · intro v hv; rw [mem_drop] at hv; exact ⟨hv.1, fun he => hv.2 (by simpa using he.symm)⟩
        · intros; refine ⟨by assumption, by simp⟩
        · intros; refine ⟨by assumption, by simp⟩
        · intro hv; rw [mem_drop] at hv; exact ⟨hv.1, by simp⟩
        · intros; refine ⟨by assumption, by simp⟩
      · refine inv_add h2 _ _ rfl (fun hc => h2.gear _ hc hm) ?_ ?_ ?_ ?_ ?_
        · intro v hv; rw [mem_drop] at hv; exact ⟨hv.1, fun he => hv.2 (by simpa using he.symm)⟩
        all_goals (intros; refine ⟨by assumption, by simp⟩)
    · exact h2
  revert h3
  generalize (if inn rpm ∈ u.gearIn then
      if rpm ∈ u.shpOut then
        { u with conns := u.conns ++ [(.shp rpm, .gear (inn rpm))]
                 gearIn := drop u.gearIn (inn rpm), shpOut := drop u.shpOut rpm }
      else
        { u with conns := u.conns ++ [(.rpmSource, .gear (inn rpm))], gearIn := drop u.gearIn (inn rpm) }
      else u) = w
  intro h3
  split
  · rename_i hm
    refine inv_add h3 _ _ rfl (fun hc => h3.prop _ hc hm.2.2) ?_ ?_ ?_ ?_ ?_
    · intros; refine ⟨by assumption, by simp⟩
    · intro v hv; rw [mem_drop] at hv; exact ⟨hv.1, fun he => hv.2 (by simpa using he.symm)⟩
    all_goals (intros; refine ⟨by assumption, by simp⟩)
  · exact h3

theorem inv_gearPromote {s : St} (h : Inv s) : Inv (gearPromote s) :=
  inv_less h rfl (fun _ hv => by simp [gearPromote] at hv) (fun _ => id) (fun _ => id) id id

theorem inv_exactLink {s : St} (v : Name) (h : Inv s) (hv : v ∈ s.propIn) : Inv (exactLink s v) := by
  unfold exactLink
  split
  · refine inv_add h _ _ rfl (fun hc => h.prop _ hc hv) ?_ ?_ ?_ ?_ ?_
    · intros; refine ⟨by assumption, by simp⟩
    · intro v hv; rw [mem_drop] at hv; exact ⟨hv.1, fun he => hv.2 (by simpa using he.symm)⟩
    all_goals (intros; refine ⟨by assumption, by simp⟩)
  · exact h

theorem inv_exactFold (l : List Name) {s : St} (h : Inv s) (hn : l.Nodup) (hl : ∀ v ∈ l, v ∈ s.propIn) :
    Inv (l.foldl exactLink s) := by
  induction l generalizing s with
  | nil => exact h
  | cons v l ih =>
    rw [List.nodup_cons] at hn
    refine ih (inv_exactLink v h (hl v (List.mem_cons_self ..))) hn.2 ?_
    intro w hw
    have hw' := hl w (List.mem_cons_of_mem _ hw)
    unfold exactLink
    split
    · exact (mem_drop _ _ _).2 ⟨hw', fun he => hn.1 (he ▸ hw)⟩
    · exact hw'

theorem inv_outLink {s : St} (v : Name) (h : Inv s) : Inv (outLink s v) := by
  unfold outLink
  split
  · simp only
    split
    · rename_i hm
      refine inv_add h _ _ rfl (fun hc => h.prop _ hc hm) ?_ ?_ ?_ ?_ ?_
      · intros; refine ⟨by assumption, by simp⟩
      · intro v hv; rw [mem_drop] at hv; exact ⟨hv.1, fun he => hv.2 (by simpa using he.symm)⟩
      all_goals (intros; refine ⟨by assumption, by simp⟩)
    · exact inv_less h rfl (fun _ => id) (fun _ => id) (fun _ => id) id id
  · exact h

theorem inv_propThrust {s : St} (h : Inv s) : Inv (propThrust s) := by
  unfold propThrust
  split
  · rename_i hm
    refine inv_add h _ _ rfl (fun hc => h.sumProp hc hm) ?_ ?_ ?_ ?_ ?_
    · intros; refine ⟨by assumption, by simp⟩
    · intros; refine ⟨by assumption, by simp⟩
    · intros; refine ⟨by assumption, by simp⟩
    · intros; refine ⟨by assumption, by simp⟩
    · intro hv; rw [mem_drop] at hv; exact absurd rfl hv.2
  · exact h

theorem inv_fold {f : St → Name → St} (hf : ∀ s v, Inv s → Inv (f s v)) (l : List Name) {s : St} (h : Inv s) :
    Inv (l.foldl f s) := by
  induction l generalizing s with
  | nil => exact h
  | cons v l ih => exact ih (hf s v h)

theorem inv_upstream (fixed : Bool) (l : Lists) : Inv (upstream fixed l) := by
  unfold upstream
  simp only
  have h0 : Inv { toLists := { l with gearIn := gearInputList l.gearIn } } :=
    ⟨by simp [dests], by simp [dests], by simp [dests], by simp [dests], by simp [dests], by simp [dests]⟩
  have h1 := inv_fold (fun s v h => inv_gearLink v h)
    (shpThrust { toLists := { l with gearIn := gearInputList l.gearIn } }).shpOut (inv_shpThrust h0)
  split
  · exact inv_rpmFixed h1
  · exact inv_rpmFree h1

/-! What the steps keep. -/

/-- Connections stay, and an input is dropped only when it is connected. -/
structure Step (s t : St) : Prop where
  conns : ∀ c ∈ s.conns, c ∈ t.conns
  prop : ∀ v ∈ s.propIn, v ∈ t.propIn ∨ .prop v ∈ dests t
  propLess : ∀ v ∈ t.propIn, v ∈ s.propIn
  shp : ∀ v ∈ s.shpIn, v ∈ t.shpIn ∨ .shp v ∈ dests t
  propNodup : s.propIn.Nodup → t.propIn.Nodup

theorem dests_mono {s t : St} (h : ∀ c ∈ s.conns, c ∈ t.conns) (p : Port) (hp : p ∈ dests s) : p ∈ dests t := by
  simp only [dests, List.mem_map] at hp ⊢
  obtain ⟨c, hc, rfl⟩ := hp
  exact ⟨c, h c hc, rfl⟩

theorem Step.refl (s : St) : Step s s := ⟨fun _ => id, fun _ => .inl, fun _ => id, fun _ => .inl, id⟩

theorem Step.trans {s t u : St} (h : Step s t) (g : Step t u) : Step s u := by
  refine ⟨fun c hc => g.conns c (h.conns c hc), fun v hv => ?_, fun v hv => h.propLess v (g.propLess v hv),
    fun v hv => ?_, fun hn => g.propNodup (h.propNodup hn)⟩
  · rcases h.prop v hv with h1 | h1
    · exact g.prop v h1
    · exact .inr (dests_mono g.conns _ h1)
  · rcases h.shp v hv with h1 | h1
    · exact g.shp v h1
    · exact .inr (dests_mono g.conns _ h1)

theorem step_same {s t : St} (h1 : t.conns = s.conns) (h2 : t.propIn = s.propIn) (h3 : t.shpIn = s.shpIn) :
    Step s t :=
  ⟨fun c hc => h1 ▸ hc, fun v hv => .inl (h2 ▸ hv), fun v hv => h2 ▸ hv, fun v hv => .inl (h3 ▸ hv),
    fun hn => h2 ▸ hn⟩

theorem step_add {s t : St} (c : Port × Port) (h1 : t.conns = s.conns ++ [c]) (h2 : t.propIn = s.propIn)
    (h3 : t.shpIn = s.shpIn) : Step s t :=
  ⟨fun d hd => by rw [h1]; exact List.mem_append_left _ hd, fun v hv => .inl (h2 ▸ hv),
    fun v hv => h2 ▸ hv, fun v hv => .inl (h3 ▸ hv), fun hn => h2 ▸ hn⟩

theorem step_prop {s t : St} (src : Port) (v : Name) (h1 : t.conns = s.conns ++ [(src, .prop v)])
    (h2 : t.propIn = drop s.propIn v) (h3 : t.shpIn = s.shpIn) : Step s t := by
  refine ⟨fun d hd => by rw [h1]; exact List.mem_append_left _ hd, fun w hw => ?_, fun w hw => ?_,
    fun w hw => .inl (h3 ▸ hw), fun hn => ?_⟩
  · by_cases he : w = v
    · right; subst he; simp [dests, h1]
    · left; rw [h2, mem_drop]; exact ⟨hw, he⟩
  · rw [h2, mem_drop] at hw; exact hw.1
  · rw [h2]; exact hn.filter _

theorem step_shp {s t : St} (src : Port) (v : Name) (h1 : t.conns = s.conns ++ [(src, .shp v)])
    (h2 : t.propIn = s.propIn) (h3 : t.shpIn = drop s.shpIn v) : Step s t := by
  refine ⟨fun d hd => by rw [h1]; exact List.mem_append_left _ hd, fun w hw => .inl (h2 ▸ hw),
    fun w hw => h2 ▸ hw, fun w hw => ?_, fun hn => h2 ▸ hn⟩
  by_cases he : w = v
  · right; subst he; simp [dests, h1]
  · left; rw [h3, mem_drop]; exact ⟨hw, he⟩

theorem step_ite {c : Prop} [Decidable c] {s a b : St} (h1 : Step s a) (h2 : Step s b) :
    Step s (if c then a else b) := by
  split
  · exact h1
  · exact h2

theorem step_shpThrust (s : St) : Step s (shpThrust s) := by
  unfold shpThrust
  split
  · exact step_add _ rfl rfl rfl
  · exact .refl s

theorem step_gearLink (s : St) (v : Name) : Step s (gearLink s v) := by
  unfold gearLink
  simp only
  refine Step.trans (t := if v ∈ s.gearOut ∨ out v ∈ s.gearOut ∧ v ≠ rpm then
    { s with shpOut := drop s.shpOut v } else s) ?_ ?_
  · split
    · exact step_same rfl rfl rfl
    · exact .refl s
  · exact step_ite (step_add _ rfl rfl rfl) (.refl _)

theorem step_fold {f : St → Name → St} (hf : ∀ s v, Step s (f s v)) (l : List Name) (s : St) :
    Step s (l.foldl f s) := by
  induction l generalizing s with
  | nil => exact .refl s
  | cons v l ih => exact (hf s v).trans (ih _)

theorem step_rpmFixed (s : St) : Step s (rpmFixed s) := by
  unfold rpmFixed
  simp only
  refine Step.trans (t := if rpm ∈ s.shpOut then
      { s with shpOutputs := s.shpOutputs ++ [(rpm, override)], shpOut := drop s.shpOut rpm } else s) ?_ ?_
  · split
    · exact step_same rfl rfl rfl
    · exact .refl s
  generalize (if rpm ∈ s.shpOut then
      { s with shpOutputs := s.shpOutputs ++ [(rpm, override)], shpOut := drop s.shpOut rpm } else s) = t
  refine Step.trans (t := if inn rpm ∈ t.gearIn then
      { t with conns := t.conns ++ [(.rpmSource, .gear (inn rpm))], gearIn := drop t.gearIn (inn rpm) }
      else { t with rpmAll := true }) ?_ ?_
  · exact step_ite (step_add _ rfl rfl rfl) (step_same rfl rfl rfl)
  · exact step_ite (step_shp _ _ rfl rfl rfl) (.refl _)

theorem step_rpmFree (s : St) : Step s (rpmFree s) := by
  unfold rpmFree
  simp only
  refine Step.trans (t := if rpm ∉ s.shpOut ∧ (rpm ∈ s.shpIn ∨ inn rpm ∈ s.gearIn ∨ rpm ∈ s.propIn) then
      { s with rpmControl := true } else s) ?_ ?_
  · split
    · exact step_same rfl rfl rfl
    · exact .refl s
  generalize (if rpm ∉ s.shpOut ∧ (rpm ∈ s.shpIn ∨ inn rpm ∈ s.gearIn ∨ rpm ∈ s.propIn) then
      { s with rpmControl := true } else s) = t
  refine Step.trans (t := if rpm ∈ t.shpIn then
      { t with conns := t.conns ++ [(.rpmSource, .shp rpm)], shpIn := drop t.shpIn rpm } else t) ?_ ?_
  · split
    · exact step_shp _ _ rfl rfl rfl
    · exact .refl t
  generalize (if rpm ∈ t.shpIn then
      { t with conns := t.conns ++ [(.rpmSource, .shp rpm)], shpIn := drop t.shpIn rpm } else t) = u
  refine Step.trans (t := if inn rpm ∈ u.gearIn then
      if rpm ∈ u.shpOut then
        { u with conns := u.conns ++ [(.shp rpm, .gear (inn rpm))]
                 gearIn := drop u.gearIn (inn rpm), shpOut := drop u.shpOut rpm }
      else
        { u with conns := u.conns ++ [(.rpmSource, .gear (inn rpm))], gearIn := drop u.gearIn (inn rpm) }
      else u) ?_ ?_
  · exact step_ite (step_ite (step_add _ rfl rfl rfl) (step_add _ rfl rfl rfl)) (.refl u)
  · exact step_ite (step_prop _ _ rfl rfl rfl) (.refl _)

theorem step_exactLink (s : St) (v : Name) : Step s (exactLink s v) := by
  unfold exactLink
  split
  · exact step_prop _ _ rfl rfl rfl
  · exact .refl s

theorem step_outLink (s : St) (v : Name) : Step s (outLink s v) := by
  unfold outLink
  split
  · simp only
    split
    · exact step_prop _ _ rfl rfl rfl
    · exact step_same rfl rfl rfl
  · exact .refl s

theorem step_propThrust (s : St) : Step s (propThrust s) := by
  unfold propThrust
  split
  · exact step_add _ rfl rfl rfl
  · exact .refl s

theorem step_downstream (s : St) : Step s (downstream s) := by
  unfold downstream
  simp only
  refine Step.trans (t := gearPromote s) (step_same rfl rfl rfl) ?_
  exact (step_fold step_exactLink _ _).trans (step_fold step_outLink _ _)

theorem step_upstream (fixed : Bool) (l : Lists) :
    Step { toLists := { l with gearIn := gearInputList l.gearIn } } (upstream fixed l) := by
  unfold upstream
  simp only
  exact (step_shpThrust _).trans ((step_fold step_gearLink _ _).trans
    (step_ite (step_rpmFixed _) (step_rpmFree _)))

theorem inv_downstream {s : St} (h : Inv s) (hn : s.propIn.Nodup) : Inv (downstream s) := by
  unfold downstream
  simp only
  exact inv_fold (fun s v h => inv_outLink v h) _ (inv_exactFold _ (inv_gearPromote h) hn fun v hv => hv)

/-- No input is connected twice, and no promoted input is connected. -/
theorem single_source (fixed : Bool) (l : Lists) (hn : l.propIn.Nodup) (w : Wiring)
    (h : configure true fixed l = .ok w) :
    (w.conns.map Prod.snd).Nodup ∧ (∀ v ∈ w.propInputs, .prop v ∉ w.conns.map Prod.snd) ∧
    (∀ v ∈ w.shpInputs, .shp v ∉ w.conns.map Prod.snd) := by
  simp only [configure, if_true, Except.ok.injEq] at h
  subst h
  have hu := inv_upstream fixed l
  have hn' := (step_upstream fixed l).propNodup hn
  have hi := inv_propThrust (inv_downstream hu hn')
  refine ⟨hi.nodup, ?_, ?_⟩
  · intro v hv hc
    simp only [List.mem_filter] at hv
    exact hi.prop v hc hv.1
  · intro v hv hc
    have e1 : ∀ (k : List Name) (s : St), (k.foldl exactLink s).shpIn = s.shpIn := by
      intro k
      induction k with
      | nil => intro s; rfl
      | cons a k ih => intro s; rw [List.foldl_cons, ih]; unfold exactLink; split <;> rfl
    have e2 : ∀ (k : List Name) (s : St), (k.foldl outLink s).shpIn = s.shpIn := by
      intro k
      induction k with
      | nil => intro s; rfl
      | cons a k ih =>
        intro s; rw [List.foldl_cons, ih]; unfold outLink; split
        · simp only; split <;> rfl
        · rfl
    have e3 : (propThrust (downstream (upstream fixed l))).shpIn = (upstream fixed l).shpIn := by
      have : (propThrust (downstream (upstream fixed l))).shpIn = (downstream (upstream fixed l)).shpIn := by
        unfold propThrust; split <;> rfl
      rw [this]
      unfold downstream
      simp only
      rw [e2, e1]; rfl
    exact hi.shp v hc (e3 ▸ hv)

/-- Every input of the propeller is connected, promoted, or in the list of inputs that are skipped. -/
theorem prop_inputs_partial (fixed : Bool) (l : Lists) (w : Wiring) (h : configure true fixed l = .ok w)
    (v : Name) (hv : v ∈ l.propIn) :
    .prop v ∈ w.conns.map Prod.snd ∨ v ∈ w.propInputs ∨ v ∈ skipped := by
  simp only [configure, if_true, Except.ok.injEq] at h
  subst h
  have hs := ((step_upstream fixed l).trans (step_downstream _)).trans (step_propThrust _)
  rcases hs.prop v hv with h1 | h1
  · by_cases hk : v ∈ skipped
    · exact .inr (.inr hk)
    · exact .inr (.inl (List.mem_filter.2 ⟨h1, by simpa using hk⟩))
  · exact .inl h1

/-- Every input of the shaft power model is connected or promoted. -/
theorem shp_inputs_covered (fixed : Bool) (l : Lists) (w : Wiring) (h : configure true fixed l = .ok w)
    (v : Name) (hv : v ∈ l.shpIn) : .shp v ∈ w.conns.map Prod.snd ∨ v ∈ w.shpInputs := by
  simp only [configure, if_true, Except.ok.injEq] at h
  subst h
  rcases (step_upstream fixed l).shp v hv with h1 | h1
  · exact .inr h1
  · exact .inl (dests_mono ((step_downstream _).trans (step_propThrust _)).conns _ h1)

/-! Which connections are made. -/

theorem gearLink_gearOut (s : St) (v : Name) : (gearLink s v).gearOut = s.gearOut ∧
    (gearLink s v).propIn = s.propIn ∧ (gearLink s v).shpIn = s.shpIn ∧ (gearLink s v).propOut = s.propOut := by
  unfold gearLink
  simp only
  split <;> split <;> exact ⟨rfl, rfl, rfl, rfl⟩

theorem gearFold_gearOut (k : List Name) (s : St) : (k.foldl gearLink s).gearOut = s.gearOut ∧
    (k.foldl gearLink s).propIn = s.propIn ∧ (k.foldl gearLink s).shpIn = s.shpIn ∧
    (k.foldl gearLink s).propOut = s.propOut := by
  induction k generalizing s with
  | nil => exact ⟨rfl, rfl, rfl, rfl⟩
  | cons a k ih =>
    obtain ⟨h1, h2, h3, h4⟩ := gearLink_gearOut s a
    obtain ⟨g1, g2, g3, g4⟩ := ih (gearLink s a)
    exact ⟨g1.trans h1, g2.trans h2, g3.trans h3, g4.trans h4⟩

theorem gearLink_gearIn (s : St) (v g : Name) :
    g ∈ (gearLink s v).gearIn ↔ g ∈ s.gearIn ∧ ¬ (v ≠ rpm ∧ g = inn v) := by
  have e : ∀ t : St, t.gearIn = s.gearIn →
      (g ∈ (if inn v ∈ t.gearIn ∧ v ≠ rpm then
        { t with gearIn := drop t.gearIn (inn v), conns := t.conns ++ [(.shp v, .gear (inn v))] }
        else t).gearIn ↔ g ∈ s.gearIn ∧ ¬ (v ≠ rpm ∧ g = inn v)) := by
    intro t ht
    split
    · rename_i hc
      simp only [mem_drop, ht]
      constructor
      · rintro ⟨h1, h2⟩; exact ⟨h1, fun h3 => h2 h3.2⟩
      · rintro ⟨h1, h2⟩; exact ⟨h1, fun h3 => h2 ⟨hc.2, h3⟩⟩
    · rename_i hc
      rw [ht]
      constructor
      · intro h1
        refine ⟨h1, ?_⟩
        rintro ⟨h2, rfl⟩
        exact hc ⟨ht ▸ h1, h2⟩
      · exact fun h => h.1
  unfold gearLink
  simp only
  apply e
  split <;> rfl

theorem gearFold_gearIn (k : List Name) (s : St) (g : Name) :
    g ∈ (k.foldl gearLink s).gearIn ↔ g ∈ s.gearIn ∧ ∀ v ∈ k, v ≠ rpm → g ≠ inn v := by
  induction k generalizing s with
  | nil => simp
  | cons a k ih =>
    rw [List.foldl_cons, ih, gearLink_gearIn]
    simp only [List.mem_cons, forall_eq_or_imp, not_and, and_assoc, ne_eq]

theorem gearLink_shpOut (s : St) (v w : Name) : w ∈ (gearLink s v).shpOut ↔
    w ∈ s.shpOut ∧ ¬ (w = v ∧ (v ∈ s.gearOut ∨ out v ∈ s.gearOut ∧ v ≠ rpm)) := by
  unfold gearLink
  simp only
  have e : ∀ t : St, (if inn v ∈ t.gearIn ∧ v ≠ rpm then
        { t with gearIn := drop t.gearIn (inn v), conns := t.conns ++ [(.shp v, .gear (inn v))] }
        else t).shpOut = t.shpOut := by intro t; split <;> rfl
  rw [e]
  split
  · rename_i hc
    simp only [mem_drop]
    constructor
    · rintro ⟨h1, h2⟩; exact ⟨h1, fun h3 => h2 h3.1⟩
    · rintro ⟨h1, h2⟩; exact ⟨h1, fun h3 => h2 ⟨h3, hc⟩⟩
  · rename_i hc
    exact ⟨fun h1 => ⟨h1, fun h2 => hc h2.2⟩, fun h => h.1⟩

theorem gearFold_shpOut (k : List Name) (s : St) (w : Name) : w ∈ (k.foldl gearLink s).shpOut ↔
    w ∈ s.shpOut ∧ ¬ (w ∈ k ∧ (w ∈ s.gearOut ∨ out w ∈ s.gearOut ∧ w ≠ rpm)) := by
  induction k generalizing s with
  | nil => simp
  | cons a k ih =>
    rw [List.foldl_cons, ih, gearLink_shpOut, (gearLink_gearOut s a).1, List.mem_cons]
    constructor
    · rintro ⟨⟨h1, h2⟩, h3⟩
      refine ⟨h1, ?_⟩
      rintro ⟨h4 | h4, h5⟩
      · subst h4; exact h2 ⟨rfl, h5⟩
      · exact h3 ⟨h4, h5⟩
    · rintro ⟨h1, h2⟩
      refine ⟨⟨h1, ?_⟩, fun h3 => h2 ⟨.inr h3.1, h3.2⟩⟩
      rintro ⟨rfl, h4⟩
      exact h2 ⟨.inl rfl, h4⟩

theorem gearFold_conns (k : List Name) (s : St) (v : Name) (hv : v ∈ k) (hr : v ≠ rpm) (hi : inn v ∈ s.gearIn) :
    (.shp v, .gear (inn v)) ∈ (k.foldl gearLink s).conns := by
  induction k generalizing s with
  | nil => simp at hv
  | cons a k ih =>
    rw [List.foldl_cons]
    by_cases ha : v = a
    · subst ha
      refine (step_fold step_gearLink k _).conns _ ?_
      unfold gearLink
      simp only
      rw [if_pos]
      · simp
      · refine ⟨?_, hr⟩
        split <;> exact hi
    · refine ih _ (by simpa [ha] using hv) ?_
      rw [gearLink_gearIn]
      exact ⟨hi, fun hc => ha (inn_inj hc.2)⟩

/-- A variable that the shaft power model gives and the gearbox takes as `_in` goes from one to the other. -/
theorem shaft_to_gearbox (fixed : Bool) (l : Lists) (w : Wiring) (h : configure true fixed l = .ok w) (v : Name)
    (hv : v ∈ l.shpOut) (hr : v ≠ rpm) (ht : v ≠ thrust) (hi : inn v ∈ l.gearIn)
    (ho : ¬ "_out".toList <:+: inn v) : (.shp v, .gear (inn v)) ∈ w.conns := by
  simp only [configure, if_true, Except.ok.injEq] at h
  subst h
  refine ((step_downstream _).trans (step_propThrust _)).conns _ ?_
  unfold upstream
  simp only
  have key := gearFold_conns
    (shpThrust { toLists := { l with gearIn := gearInputList l.gearIn } }).shpOut
    (shpThrust { toLists := { l with gearIn := gearInputList l.gearIn } }) v
    (by unfold shpThrust; split
        · exact (mem_drop _ _ _).2 ⟨hv, ht⟩
        · exact hv) hr
    (by
      have : inn v ∈ gearInputList l.gearIn := by simp [gearInputList, hi]; exact ho
      unfold shpThrust; split <;> exact this)
  split
  · exact (step_rpmFixed _).conns _ key
  · exact (step_rpmFree _).conns _ key

theorem exactLink_gearOut (s : St) (v : Name) : (exactLink s v).gearOut = s.gearOut ∧
    (exactLink s v).gearOutputs = s.gearOutputs := by
  unfold exactLink; split <;> exact ⟨rfl, rfl⟩

theorem exactFold_gearOut (k : List Name) (s : St) : (k.foldl exactLink s).gearOut = s.gearOut ∧
    (k.foldl exactLink s).gearOutputs = s.gearOutputs := by
  induction k generalizing s with
  | nil => exact ⟨rfl, rfl⟩
  | cons a k ih =>
    exact ⟨(ih _).1.trans (exactLink_gearOut s a).1, (ih _).2.trans (exactLink_gearOut s a).2⟩

theorem exactFold_conns (k : List Name) (s : St) (v : Name) (hv : v ∈ k) (hg : v ∈ s.gearOut) :
    (.top v, .prop v) ∈ (k.foldl exactLink s).conns := by
  induction k generalizing s with
  | nil => simp at hv
  | cons a k ih =>
    rw [List.foldl_cons]
    by_cases ha : v = a
    · subst ha
      refine (step_fold step_exactLink k _).conns _ ?_
      simp [exactLink, hg]
    · exact ih _ (by simpa [ha] using hv) (by rw [(exactLink_gearOut s a).1]; exact hg)

theorem exactFold_propIn (k : List Name) (s : St) (v : Name) (hv : v ∈ s.propIn) :
    v ∈ (k.foldl exactLink s).propIn ∨ (.top v, .prop v) ∈ (k.foldl exactLink s).conns := by
  induction k generalizing s with
  | nil => exact .inl hv
  | cons a k ih =>
    rw [List.foldl_cons]
    by_cases hc : v = a ∧ a ∈ s.gearOut
    · right
      obtain ⟨rfl, hc⟩ := hc
      exact (step_fold step_exactLink k _).conns _ (by simp [exactLink, hc])
    · refine ih _ ?_
      unfold exactLink
      split
      · rename_i ha
        exact (mem_drop _ _ _).2 ⟨hv, fun he => hc ⟨he, ha⟩⟩
      · exact hv

theorem outLink_outputs (s : St) (v : Name) (p : Name × Name) (hp : p ∈ s.gearOutputs) :
    p ∈ (outLink s v).gearOutputs := by
  unfold outLink
  split
  · simp only
    split <;> exact List.mem_append_left _ hp
  · exact hp

theorem outFold_outputs (k : List Name) (s : St) (p : Name × Name) (hp : p ∈ s.gearOutputs) :
    p ∈ (k.foldl outLink s).gearOutputs := by
  induction k generalizing s with
  | nil => exact hp
  | cons a k ih => exact ih _ (outLink_outputs s a p hp)

theorem outFold_conns (k : List Name) (s : St) (g : Name) (hg : g ∈ k) (ho : isOut g = true) :
    (g, base g) ∈ (k.foldl outLink s).gearOutputs ∧
    (base g ∈ s.propIn → (.top (base g), .prop (base g)) ∈ (k.foldl outLink s).conns) := by
  induction k generalizing s with
  | nil => simp at hg
  | cons a k ih =>
    rw [List.foldl_cons]
    by_cases ha : g = a
    · subst ha
      constructor
      · refine outFold_outputs k _ _ ?_
        unfold outLink
        simp only [ho, if_true]
        split <;> simp
      · intro hb
        refine (step_fold step_outLink k _).conns _ ?_
        simp [outLink, ho, hb]
    · obtain ⟨h1, h2⟩ := ih (outLink s a) (by simpa [ha] using hg)
      refine ⟨h1, fun hb => ?_⟩
      by_cases hc : isOut a = true ∧ base g = base a
      · refine (step_fold step_outLink k _).conns _ ?_
        rw [hc.2] at hb ⊢
        simp [outLink, hc.1, hb]
      · refine h2 ?_
        unfold outLink
        split
        · rename_i hoa
          simp only
          split
          · exact (mem_drop _ _ _).2 ⟨hb, fun he => hc ⟨hoa, he⟩⟩
          · exact hb
        · exact hb

theorem upstream_gearOut (fixed : Bool) (l : Lists) : (upstream fixed l).gearOut = l.gearOut := by
  unfold upstream
  simp only
  have e1 : ∀ s, (rpmFixed s).gearOut = s.gearOut := by
    intro s; unfold rpmFixed; simp only; repeat' split
    all_goals rfl
  have e2 : ∀ s, (rpmFree s).gearOut = s.gearOut := by
    intro s; unfold rpmFree; simp only; repeat' split
    all_goals rfl
  have e3 : ∀ s, (shpThrust s).gearOut = s.gearOut := by
    intro s; unfold shpThrust; split <;> rfl
  split
  · rw [e1, (gearFold_gearOut _ _).1, e3]
  · rw [e2, (gearFold_gearOut _ _).1, e3]

theorem upstream_propIn (fixed : Bool) (l : Lists) (v : Name) (hv : v ∈ l.propIn)
    (hr : v ≠ rpm ∨ out rpm ∈ l.gearOut) : v ∈ (upstream fixed l).propIn := by
  unfold upstream
  simp only
  have e1 : ∀ s, (rpmFixed s).propIn = s.propIn := by
    intro s; unfold rpmFixed; simp only; repeat' split
    all_goals rfl
  have e2 : ∀ s : St, (v ≠ rpm ∨ out rpm ∈ s.gearOut) → v ∈ s.propIn → v ∈ (rpmFree s).propIn := by
    intro s hr hv; unfold rpmFree; simp only; repeat' split
    all_goals first
      | exact hv
      | (rename_i hc
         rcases hr with hr | hr
         · exact (mem_drop _ _ _).2 ⟨hv, hr⟩
         · exact absurd hr hc.2.1)
  have e3 : ∀ s, (shpThrust s).propIn = s.propIn ∧ (shpThrust s).gearOut = s.gearOut := by
    intro s; unfold shpThrust; split <;> exact ⟨rfl, rfl⟩
  split
  · rw [e1, (gearFold_gearOut _ _).2.1, (e3 _).1]; exact hv
  · refine e2 _ ?_ ?_
    · rw [(gearFold_gearOut _ _).1, (e3 _).2]; exact hr
    · rw [(gearFold_gearOut _ _).2.1, (e3 _).1]; exact hv

/-- What the gearbox gives as `_out` goes out under the plain name, and to the propeller if that
takes it. -/
theorem gearbox_to_prop (fixed : Bool) (l : Lists) (w : Wiring) (h : configure true fixed l = .ok w) (v : Name)
    (ho : out v ∈ l.gearOut) :
    (out v, v) ∈ w.gearOutputs ∧ (v ∈ l.propIn → (.top v, .prop v) ∈ w.conns) := by
  simp only [configure, if_true, Except.ok.injEq] at h
  subst h
  have hg := upstream_gearOut fixed l
  have e1 : (gearPromote (upstream fixed l)).gearOut = l.gearOut := hg
  have e2 := exactFold_gearOut (gearPromote (upstream fixed l)).propIn (gearPromote (upstream fixed l))
  have hmem : out v ∈ ((gearPromote (upstream fixed l)).propIn.foldl exactLink (gearPromote (upstream fixed l))).gearOut := by
    rw [e2.1, e1]; exact ho
  have h3 := outFold_conns _ ((gearPromote (upstream fixed l)).propIn.foldl exactLink (gearPromote (upstream fixed l)))
    (out v) hmem (isOut_out v).1
  rw [(isOut_out v).2] at h3
  refine ⟨List.mem_append_left _ h3.1, fun hv => ?_⟩
  refine (step_propThrust _).conns _ ?_
  have hv' : v ∈ (gearPromote (upstream fixed l)).propIn := by
    refine upstream_propIn fixed l v hv ?_
    by_cases he : v = rpm
    · right; rw [← he]; exact ho
    · exact .inl he
  rcases exactFold_propIn (gearPromote (upstream fixed l)).propIn _ v hv' with h4 | h4
  · exact h3.2 h4
  · exact (step_fold step_outLink _ _).conns _ h4

/-- What the gearbox gives under the name of a propeller input goes to the propeller. -/
theorem gearbox_exact_to_prop (fixed : Bool) (l : Lists) (w : Wiring) (h : configure true fixed l = .ok w)
    (v : Name) (ho : v ∈ l.gearOut) (hv : v ∈ l.propIn) (hr : v ≠ rpm) : (.top v, .prop v) ∈ w.conns := by
  simp only [configure, if_true, Except.ok.injEq] at h
  subst h
  refine (step_propThrust _).conns _ ((step_fold step_outLink _ _).conns _ ?_)
  refine exactFold_conns _ _ v (upstream_propIn fixed l v hv (.inl hr)) ?_
  exact (upstream_gearOut fixed l).symm ▸ ho

/-! RPM -/

/-- The state before RPM is handled. -/
def mid (l : Lists) : St :=
  (shpThrust { toLists := { l with gearIn := gearInputList l.gearIn } }).shpOut.foldl gearLink
    (shpThrust { toLists := { l with gearIn := gearInputList l.gearIn } })

theorem mid_gearIn (l : Lists) : inn rpm ∈ (mid l).gearIn ↔ inn rpm ∈ l.gearIn := by
  have h0 : ¬ "_out".toList <:+: inn rpm := by decide +kernel
  have e : (shpThrust { toLists := { l with gearIn := gearInputList l.gearIn } }).gearIn =
      gearInputList l.gearIn := by unfold shpThrust; split <;> rfl
  unfold mid
  rw [gearFold_gearIn, e]
  constructor
  · rintro ⟨h1, -⟩; exact (List.mem_filter.1 h1).1
  · intro h1
    refine ⟨List.mem_filter.2 ⟨h1, ?_⟩, fun v _ hv he => hv (inn_inj he).symm⟩
    simpa using h0

theorem mid_shpOut (l : Lists) : rpm ∈ (mid l).shpOut ↔ rpm ∈ l.shpOut ∧ rpm ∉ l.gearOut := by
  have e : (shpThrust { toLists := { l with gearIn := gearInputList l.gearIn } }).gearOut = l.gearOut := by
    unfold shpThrust; split <;> rfl
  have h0 : rpm ≠ thrust := by decide
  have e2 : rpm ∈ (shpThrust { toLists := { l with gearIn := gearInputList l.gearIn } }).shpOut ↔
      rpm ∈ l.shpOut := by
    unfold shpThrust; split
    · simp only [mem_drop, and_iff_left h0]
    · rfl
  unfold mid
  rw [gearFold_shpOut, e, e2]
  constructor
  · rintro ⟨h1, h2⟩; exact ⟨h1, fun h3 => h2 ⟨h1, .inl h3⟩⟩
  · rintro ⟨h1, h2⟩
    refine ⟨h1, ?_⟩
    rintro ⟨-, h3 | h3⟩
    · exact h2 h3
    · exact h3.2 rfl

theorem mid_same (l : Lists) : (mid l).shpIn = l.shpIn ∧ (mid l).propIn = l.propIn ∧
    (mid l).gearOut = l.gearOut ∧ (mid l).rpmAll = false ∧ (mid l).rpmControl = false ∧ (mid l).shpOutputs = [] := by
  have e : ∀ s : St, (shpThrust s).shpIn = s.shpIn ∧ (shpThrust s).propIn = s.propIn ∧
      (shpThrust s).gearOut = s.gearOut ∧ (shpThrust s).rpmAll = s.rpmAll ∧
      (shpThrust s).rpmControl = s.rpmControl ∧ (shpThrust s).shpOutputs = s.shpOutputs := by
    intro s; unfold shpThrust; split <;> exact ⟨rfl, rfl, rfl, rfl, rfl, rfl⟩
  have e2 : ∀ (k : List Name) (s : St), (k.foldl gearLink s).rpmAll = s.rpmAll ∧
      (k.foldl gearLink s).rpmControl = s.rpmControl ∧ (k.foldl gearLink s).shpOutputs = s.shpOutputs := by
    intro k
    induction k with
    | nil => intro s; exact ⟨rfl, rfl, rfl⟩
    | cons a k ih =>
      intro s
      have h1 : (gearLink s a).rpmAll = s.rpmAll ∧ (gearLink s a).rpmControl = s.rpmControl ∧
          (gearLink s a).shpOutputs = s.shpOutputs := by
        unfold gearLink; simp only; split <;> split <;> exact ⟨rfl, rfl, rfl⟩
      obtain ⟨g1, g2, g3⟩ := ih (gearLink s a)
      exact ⟨g1.trans h1.1, g2.trans h1.2.1, g3.trans h1.2.2⟩
  obtain ⟨a1, a2, a3, a4, a5, a6⟩ := e { toLists := { l with gearIn := gearInputList l.gearIn } }
  unfold mid
  obtain ⟨b1, b2, b3, -⟩ := gearFold_gearOut
    (shpThrust { toLists := { l with gearIn := gearInputList l.gearIn } }).shpOut
    (shpThrust { toLists := { l with gearIn := gearInputList l.gearIn } })
  obtain ⟨c1, c2, c3⟩ := e2
    (shpThrust { toLists := { l with gearIn := gearInputList l.gearIn } }).shpOut
    (shpThrust { toLists := { l with gearIn := gearInputList l.gearIn } })
  exact ⟨b3.trans a1, b2.trans a2, b1.trans a3, c1.trans a4, c2.trans a5, c3.trans a6⟩

/-- Fixed RPM: the source goes to the input `_in` of the gearbox, or is given the plain name if there is
none, and goes to the shaft power model; the RPM the shaft power model gives gets another name. -/
theorem fixed_rpm (l : Lists) (w : Wiring) (h : configure true true l = .ok w) :
    (inn rpm ∈ l.gearIn → (.rpmSource, .gear (inn rpm)) ∈ w.conns) ∧
    (w.rpmAll = true ↔ inn rpm ∉ l.gearIn) ∧
    (rpm ∈ l.shpIn → (.rpmSource, .shp rpm) ∈ w.conns) ∧ w.rpmControl = false ∧
    (rpm ∈ l.shpOut → rpm ∉ l.gearOut → (rpm, override) ∈ w.shpOutputs) ∧ (rpm, rpm) ∉ w.shpOutputs := by
  simp only [configure, if_true, Except.ok.injEq] at h
  subst h
  have hs := (step_downstream (upstream true l)).trans (step_propThrust _)
  have hu : upstream true l = rpmFixed (mid l) := rfl
  obtain ⟨m1, -, -, m4, m5, m6⟩ := mid_same l
  have h1 := mid_gearIn l
  have h2 := mid_shpOut l
  have key : (inn rpm ∈ l.gearIn → (.rpmSource, .gear (inn rpm)) ∈ (rpmFixed (mid l)).conns) ∧
      ((rpmFixed (mid l)).rpmAll = true ↔ inn rpm ∉ l.gearIn) ∧
      (rpm ∈ l.shpIn → (.rpmSource, .shp rpm) ∈ (rpmFixed (mid l)).conns) ∧
      (rpmFixed (mid l)).rpmControl = false ∧
      (rpm ∈ (mid l).shpOut → (rpm, override) ∈ (rpmFixed (mid l)).shpOutputs) ∧
      (rpm ∉ (rpmFixed (mid l)).shpOut) ∧
      (∀ p ∈ (rpmFixed (mid l)).shpOutputs, p = (rpm, override)) := by
    rw [← h1]
    rw [← m1]
    revert m4 m5 m6
    generalize mid l = s
    intro m4 m5 m6
    unfold rpmFixed
    simp only
    by_cases a1 : rpm ∈ s.shpOut <;> by_cases a2 : inn rpm ∈ s.gearIn <;> by_cases a3 : rpm ∈ s.shpIn <;>
      simp [a1, a2, a3, m4, m5, m6, mem_drop]
  obtain ⟨k1, k2, k3, k4, k5, k6, k7⟩ := key
  dsimp only
  rw [hu] at hs ⊢
  generalize propThrust (downstream (rpmFixed (mid l))) = t at hs ⊢
  generalize rpmFixed (mid l) = u at hs k1 k2 k3 k4 k5 k6 k7 ⊢
  refine ⟨fun hg => hs.conns _ (k1 hg), k2, fun hg => hs.conns _ (k3 hg), k4,
    fun ha hb => List.mem_append_left _ (k5 (h2.2 ⟨ha, hb⟩)), ?_⟩
  intro hc
  rcases List.mem_append.1 hc with hc | hc
  · have := k7 _ hc
    simp only [Prod.mk.injEq, true_and] at this
    exact absurd this (by decide +kernel)
  · obtain ⟨v, hv, he⟩ := List.mem_map.1 hc
    simp only [Prod.mk.injEq, and_self] at he
    exact k6 (he ▸ hv)

/-- RPM that is not fixed: the gearbox gets it from the shaft power model if that gives it and the gearbox
gives no variable of that name, else from the source; the source is a control when the shaft power model
does not give RPM and some input needs it. -/
theorem free_rpm (l : Lists) (w : Wiring) (h : configure true false l = .ok w) :
    (inn rpm ∈ l.gearIn → rpm ∈ l.shpOut → rpm ∉ l.gearOut → (.shp rpm, .gear (inn rpm)) ∈ w.conns) ∧
    (inn rpm ∈ l.gearIn → rpm ∉ l.shpOut → (.rpmSource, .gear (inn rpm)) ∈ w.conns ∧ w.rpmControl = true) ∧
    (rpm ∈ l.shpIn → (.rpmSource, .shp rpm) ∈ w.conns) ∧
    (rpm ∈ l.propIn → rpm ∉ l.shpOut → out rpm ∉ l.gearOut →
      (.rpmSource, .prop rpm) ∈ w.conns ∧ w.rpmControl = true) ∧
    (w.rpmControl = true ↔ ¬ (rpm ∈ l.shpOut ∧ rpm ∉ l.gearOut) ∧
      (rpm ∈ l.shpIn ∨ inn rpm ∈ l.gearIn ∨ rpm ∈ l.propIn)) := by
  simp only [configure, if_true, Except.ok.injEq] at h
  subst h
  have hs := (step_downstream (upstream false l)).trans (step_propThrust _)
  have hu : upstream false l = rpmFree (mid l) := rfl
  obtain ⟨m1, m2, m3, m4, m5, m6⟩ := mid_same l
  have h1 := mid_gearIn l
  have h2 := mid_shpOut l
  have key : (inn rpm ∈ (mid l).gearIn → rpm ∈ (mid l).shpOut →
        (.shp rpm, .gear (inn rpm)) ∈ (rpmFree (mid l)).conns) ∧
      (inn rpm ∈ (mid l).gearIn → rpm ∉ (mid l).shpOut →
        (.rpmSource, .gear (inn rpm)) ∈ (rpmFree (mid l)).conns) ∧
      (rpm ∈ (mid l).shpIn → (.rpmSource, .shp rpm) ∈ (rpmFree (mid l)).conns) ∧
      (rpm ∈ (mid l).propIn → rpm ∉ (mid l).shpOut → out rpm ∉ (mid l).gearOut →
        (.rpmSource, .prop rpm) ∈ (rpmFree (mid l)).conns) ∧
      ((rpmFree (mid l)).rpmControl = true ↔ rpm ∉ (mid l).shpOut ∧
        (rpm ∈ (mid l).shpIn ∨ inn rpm ∈ (mid l).gearIn ∨ rpm ∈ (mid l).propIn)) := by
    revert m5
    generalize mid l = s
    intro m5
    unfold rpmFree
    simp only
    by_cases a1 : rpm ∈ s.shpOut <;> by_cases a2 : inn rpm ∈ s.gearIn <;> by_cases a3 : rpm ∈ s.shpIn <;>
      by_cases a4 : rpm ∈ s.propIn <;> by_cases a5 : out rpm ∈ s.gearOut <;>
      simp [a1, a2, a3, a4, a5, m5, mem_drop]
  rw [h1, h2, m1, m2, m3] at key
  obtain ⟨k1, k2, k3, k4, k5⟩ := key
  dsimp only
  rw [hu] at hs ⊢
  generalize propThrust (downstream (rpmFree (mid l))) = t at hs ⊢
  generalize rpmFree (mid l) = u at hs k1 k2 k3 k4 k5 ⊢
  exact ⟨fun hg ha hb => hs.conns _ (k1 hg ⟨ha, hb⟩),
    fun hg ha => ⟨hs.conns _ (k2 hg fun hc => ha hc.1), k5.2 ⟨fun hc => ha hc.1, .inr (.inl hg)⟩⟩,
    fun hg => hs.conns _ (k3 hg),
    fun ha hb hc => ⟨hs.conns _ (k4 ha (fun hd => hb hd.1) hc), k5.2 ⟨fun hd => hb hd.1, .inr (.inr ha)⟩⟩,
    k5⟩

/-! Thrust -/

/-- Thrust is never promoted by the shaft power model or the propeller: it goes to the sum. -/
theorem thrust_summed (fixed : Bool) (l : Lists) (w : Wiring) (h : configure true fixed l = .ok w) :
    (thrust ∈ l.shpOut → (.shp thrust, .sumShaft) ∈ w.conns) ∧
    (thrust ∈ l.propOut → (.prop thrust, .sumProp) ∈ w.conns) ∧ thrust ∉ w.propOutputs ∧
    (thrust, thrust) ∉ w.shpOutputs := by
  simp only [configure, if_true, Except.ok.injEq] at h
  subst h
  have e0 : upstream fixed l = if fixed then rpmFixed (mid l) else rpmFree (mid l) := rfl
  have es : Step (shpThrust { toLists := { l with gearIn := gearInputList l.gearIn } }) (upstream fixed l) := by
    rw [e0]
    exact (step_fold step_gearLink _ _).trans (step_ite (step_rpmFixed _) (step_rpmFree _))
  have ed : ∀ (k : List Name) (s : St), (k.foldl exactLink s).propOut = s.propOut := by
    intro k
    induction k with
    | nil => intro s; rfl
    | cons a k ih => intro s; rw [List.foldl_cons, ih]; unfold exactLink; split <;> rfl
  have ee : ∀ (k : List Name) (s : St), (k.foldl outLink s).propOut = s.propOut := by
    intro k
    induction k with
    | nil => intro s; rfl
    | cons a k ih =>
      intro s; rw [List.foldl_cons, ih]; unfold outLink; split
      · simp only; split <;> rfl
      · rfl
  have eu : (upstream fixed l).propOut = l.propOut := by
    have f1 : ∀ s, (rpmFixed s).propOut = s.propOut := by
      intro s; unfold rpmFixed; simp only; repeat' split
      all_goals rfl
    have f2 : ∀ s, (rpmFree s).propOut = s.propOut := by
      intro s; unfold rpmFree; simp only; repeat' split
      all_goals rfl
    have f3 : ∀ s, (shpThrust s).propOut = s.propOut := by
      intro s; unfold shpThrust; split <;> rfl
    rw [e0]
    split
    · rw [f1]; unfold mid; rw [(gearFold_gearOut _ _).2.2.2, f3]
    · rw [f2]; unfold mid; rw [(gearFold_gearOut _ _).2.2.2, f3]
  have eo : (downstream (upstream fixed l)).propOut = l.propOut := by
    unfold downstream
    simp only
    rw [ee, ed]
    exact eu
  have hn : thrust ∉ (mid l).shpOut := by
    unfold mid
    rw [gearFold_shpOut]
    rintro ⟨h1, -⟩
    unfold shpThrust at h1
    split at h1
    · exact ((mem_drop _ _ _).1 h1).2 rfl
    · rename_i hc; exact hc h1
  refine ⟨fun ht => ?_, fun ht => ?_, ?_, ?_⟩
  · refine ((es.trans (step_downstream _)).trans (step_propThrust _)).conns _ ?_
    unfold shpThrust
    rw [if_pos ht]
    simp
  · unfold propThrust
    rw [if_pos (eo.symm ▸ ht)]
    simp
  · unfold propThrust
    split
    · intro hc; exact ((mem_drop _ _ _).1 hc).2 rfl
    · assumption
  · have hr : thrust ≠ rpm := by decide
    have key : ∀ s : St, s.shpOutputs = [] → thrust ∉ s.shpOut →
        (∀ p ∈ (if fixed then rpmFixed s else rpmFree s).shpOutputs, p.1 = rpm) ∧
        thrust ∉ (if fixed then rpmFixed s else rpmFree s).shpOut := by
      intro s h1 h2
      cases fixed
      · simp only [Bool.false_eq_true, if_false]
        unfold rpmFree
        simp only
        repeat' split
        all_goals simp [h1, h2, mem_drop]
      · simp only [if_true]
        unfold rpmFixed
        simp only
        repeat' split
        all_goals simp [h1, h2, mem_drop]
    obtain ⟨k1, k2⟩ := key (mid l) (mid_same l).2.2.2.2.2 hn
    rw [e0]
    intro hc
    rcases List.mem_append.1 hc with hc | hc
    · exact hr (k1 _ hc)
    · obtain ⟨v, hv, he⟩ := List.mem_map.1 hc
      simp only [Prod.mk.injEq, and_self] at he
      exact k2 (he ▸ hv)

/-! The chain of a turboshaft engine deck, Aviary's gearbox and the propeller. -/

/-- The lists of an engine deck with shaft power, Aviary's gearbox and a propeller. -/
def standard : Lists :=
  { shpIn := ["mach".toList, "throttle".toList], shpOut := [rpm, shaftPower, thrust, "t4".toList]
    gearIn := [inn rpm, inn shaftPower, "ratio".toList], gearOut := [out rpm, out shaftPower, out torque]
    propIn := [rpm, shaftPower, "mach".toList], propOut := [thrust, "efficiency".toList] }

example : ∃ w, configure true false standard = .ok w ∧
    w.conns = [(.shp thrust, .sumShaft), (.shp shaftPower, .gear (inn shaftPower)), (.shp rpm, .gear (inn rpm)),
      (.top rpm, .prop rpm), (.top shaftPower, .prop shaftPower), (.prop thrust, .sumProp)] ∧
    w.gearOutputs = [(out rpm, rpm), (out shaftPower, shaftPower), (out torque, torque)] ∧
    w.rpmControl = false ∧ w.propInputs = ["mach".toList] ∧ w.gearInputs = ["ratio".toList] :=
  ⟨_, rfl, by decide +kernel⟩

/-! What goes wrong. -/

/-- RPM not fixed, given by the engine, and a gearbox that takes RPM and does not give it: the propeller is
connected to a source that nothing sets. -/
theorem unset_rpm_violated : ∃ l w, configure true false l = .ok w ∧ rpm ∈ l.shpOut ∧
    (.rpmSource, .prop rpm) ∈ w.conns ∧ w.rpmControl = false :=
  ⟨{ standard with gearOut := [out shaftPower] }, _, rfl, by decide +kernel⟩

/-- RPM fixed, and a gearbox that takes RPM and does not give it: the propeller's RPM is promoted, and
nothing in the group gives it. -/
theorem fixed_prop_violated : ∃ l w, configure true true l = .ok w ∧ rpm ∈ w.propInputs ∧ w.rpmAll = false ∧
    (∀ p ∈ w.gearOutputs, p.2 ≠ rpm) ∧ (∀ p ∈ w.shpOutputs, p.2 ≠ rpm) :=
  ⟨{ standard with gearOut := [out shaftPower] }, _, rfl, by decide +kernel⟩

/-- A gearbox that gives RPM under its plain name does not get the engine's RPM. -/
theorem engine_rpm_violated : ∃ l w, configure true false l = .ok w ∧ rpm ∈ l.shpOut ∧ inn rpm ∈ l.gearIn ∧
    (.shp rpm, .gear (inn rpm)) ∉ w.conns ∧ (.rpmSource, .gear (inn rpm)) ∈ w.conns :=
  ⟨{ standard with gearOut := [rpm, out shaftPower] }, _, rfl, by decide +kernel⟩

/-- A propeller's shaft power that the gearbox does not give is neither connected nor promoted. -/
theorem prop_inputs_violated : ∃ l w, configure true false l = .ok w ∧ shaftPower ∈ l.propIn ∧
    .prop shaftPower ∉ w.conns.map Prod.snd ∧ shaftPower ∉ w.propInputs :=
  ⟨{ standard with gearOut := [out rpm] }, _, rfl, by decide +kernel⟩

/-! The builder -/

/-- The control of RPM is given under the name of the control; the last model that has a control of
another name decides. -/
theorem controls_spec {α : Type} (own shp gear prop : Dict String α) (k : String) :
    Dict.get? (controls own shp gear prop) k =
      if (Dict.get? (combine [own, shp, gear, prop]) "rotations_per_minute").isSome then
        if k = "rotations_per_minute_control" then
          Dict.get? (combine [own, shp, gear, prop]) "rotations_per_minute"
        else if k = "rotations_per_minute" then none
        else Dict.get? (combine [own, shp, gear, prop]) k
      else Dict.get? (combine [own, shp, gear, prop]) k := by
  unfold controls
  simp only
  cases h : Dict.get? (combine [own, shp, gear, prop]) "rotations_per_minute" with
  | none => simp
  | some x =>
    simp only [Option.isSome_some, if_true, Dict.get?_set]
    by_cases h1 : "rotations_per_minute_control" = k
    · rw [if_pos h1, if_pos h1.symm]
    · rw [if_neg h1, if_neg (fun hc => h1 hc.symm), Dict.get?_erase _ (PropMission.combine_keys _).1]
      by_cases h2 : "rotations_per_minute" = k
      · rw [if_pos h2, if_pos h2.symm]
      · rw [if_neg h2, if_neg (fun hc => h2 hc.symm)]

theorem nameLists_mem (own shp gear prop : List String) (n : String) :
    n ∈ nameLists own shp gear prop ↔ n ∈ own ∨ n ∈ shp ∨ n ∈ gear ∨ n ∈ prop := by
  simp [nameLists]

theorem parts_spec {α : Type} (deck gearbox hamilton : α) (shp prop gear : Option α) :
    (∀ x, shp = some x → (parts deck gearbox hamilton shp prop gear).1 = x) ∧
    (shp = none → (parts deck gearbox hamilton shp prop gear).1 = deck) ∧
    (∀ x, gear = some x → (parts deck gearbox hamilton shp prop gear).2.1 = x) ∧
    (gear = none → (parts deck gearbox hamilton shp prop gear).2.1 = gearbox) ∧
    (∀ x, prop = some x → (parts deck gearbox hamilton shp prop gear).2.2 = x) ∧
    (prop = none → (parts deck gearbox hamilton shp prop gear).2.2 = hamilton) := by
  refine ⟨?_, ?_, ?_, ?_, ?_, ?_⟩ <;> intros <;> simp_all [parts]

/-! Gearbox and motor -/

/-- Power behind the gearbox is torque times angular speed, and a fraction `eff` of the power in front. -/
theorem gear_power (ratio eff power omega : ℝ) (h1 : ratio ≠ 0) (h2 : omega ≠ 0) :
    gearTorque (gearPower eff power) (gearRpm ratio omega) * gearRpm ratio omega = eff * power ∧
    gearTorque (gearPower eff power) (gearRpm ratio omega) = eff * ratio * (power / omega) := by
  unfold gearTorque gearPower gearRpm
  constructor
  · rw [div_mul_cancel₀ _ (div_ne_zero h2 h1), mul_comm]
  · field_simp

/-- A gearbox of ratio above one slows the shaft and, if its losses are smaller than that, raises the torque. -/
theorem gear_reduction (ratio eff power omega : ℝ) (h1 : 1 < ratio) (h2 : 0 < omega) (h3 : 0 < power)
    (h4 : 1 < eff * ratio) : gearRpm ratio omega < omega ∧
    power / omega < gearTorque (gearPower eff power) (gearRpm ratio omega) := by
  constructor
  · exact div_lt_self h2 h1
  · rw [(gear_power ratio eff power omega (by linarith) h2.ne').2]
    exact lt_mul_of_one_lt_left (div_pos h3 h2) h4

/-- The chain of motor, efficiency and torque limit. -/
theorem motor_chain (torqueMax throttle scale omega eff : ℝ) (he : eff ≠ 0) :
    electricPower (motorPower (motorTorque torqueMax throttle scale) omega) eff * eff =
      throttle * (motorPower (motorTorque torqueMax 1 scale) omega) := by
  unfold electricPower motorPower motorTorque
  rw [div_mul_cancel₀ _ he]; ring

/-- The torque the motor gives stays in its limit. -/
theorem motor_limit (torqueMax throttle scale : ℝ) (h0 : 0 ≤ torqueMax * scale) (h1 : 0 ≤ throttle)
    (h2 : throttle ≤ 1) : 0 ≤ motorTorque torqueMax throttle scale ∧
    motorTorque torqueMax throttle scale ≤ motorTorque torqueMax 1 scale := by
  unfold motorTorque
  constructor
  · have := mul_nonneg h0 h1; linarith [mul_right_comm torqueMax throttle scale]
  · nlinarith

/-- The largest torque is the right one when the file is in N·m. -/
theorem torque_max_partial (x factor : ℝ) (h : factor = 1) : torqueMaxUsed x = factor * x := by
  simp [torqueMaxUsed, h]

/-- A file in other units gives a wrong torque. -/
theorem torque_max_violated : ∃ x factor : ℝ, factor = 1.3558179483314 ∧ torqueMaxUsed x ≠ factor * x :=
  ⟨1, _, rfl, by norm_num [torqueMaxUsed]⟩

/-- The torque the gearbox is designed for is the torque behind it of a gearbox without losses. -/
theorem gear_design (power omega ratio : ℝ) :
    gearTorqueMax power omega ratio = gearTorque (gearPower 1 power) (gearRpm ratio omega) := by
  unfold gearTorqueMax gearTorque gearPower gearRpm
  rw [mul_one]

/-- With losses, the torque stays below the one the gearbox is designed for. -/
theorem gear_design_bound (power omega ratio eff : ℝ) (h0 : 0 ≤ power) (h1 : 0 < omega) (h2 : 0 < ratio)
    (h3 : eff ≤ 1) : gearTorque (gearPower eff power) (gearRpm ratio omega) ≤ gearTorqueMax power omega ratio := by
  unfold gearTorqueMax gearTorque gearPower gearRpm
  exact div_le_div_of_nonneg_right (mul_le_of_le_one_right h0 h3) (div_pos h1 h2).le

theorem gear_mass_scale (power omega ratio specific c : ℝ) :
    gearMass (gearTorqueMax (c * power) omega ratio) specific =
      c * gearMass (gearTorqueMax power omega ratio) specific := by
  unfold gearMass gearTorqueMax; ring

/-- The motor and the rest of the group use the same RPM unless the option is set to 0. -/
theorem rpm_agree_partial (option : Option ℝ) (own : ℝ) (h : option ≠ some 0) :
    (rpmOf option own).1 = (rpmOf option own).2 := by
  cases option with
  | none => simp [rpmOf]
  | some f =>
    have : f ≠ 0 := fun hc => h (by rw [hc])
    simp [rpmOf, this]

theorem rpm_agree_violated : ∃ own : ℝ, (rpmOf (some 0) own).1 ≠ (rpmOf (some 0) own).2 :=
  ⟨1, by simp [rpmOf]⟩

/-- The names taken for inputs of the gearbox side are those that end in `_in`. -/
theorem isIn_iff (v : Name) : isIn v = true ↔ "_in".toList <:+ v := by
  rw [isIn, beq_iff_eq, List.suffix_iff_eq_drop]
  exact ⟨fun h => h.symm, fun h => h.symm⟩

/-- Of the gearbox inputs left, exactly those that are not set aside and do not end in `_in` are promoted. -/
theorem gearPromote_mem (s : St) (v : Name) :
    v ∈ (gearPromote s).gearInputs ↔ v ∈ s.gearInputs ∨ (v ∈ s.gearIn ∧ v ∉ skipped ∧ ¬ "_in".toList <:+ v) := by
  simp only [gearPromote, List.mem_append, List.mem_filter, Bool.and_eq_true, decide_eq_true_eq, Bool.not_eq_true',
    ← Bool.not_eq_true, isIn_iff]

/-- Power over angular speed is the torque; the power of the battery times the efficiency over angular speed too. -/
theorem motor_power_torque (torque omega eff : ℝ) (ho : omega ≠ 0) (he : eff ≠ 0) :
    motorPower torque omega / omega = torque ∧ electricPower (motorPower torque omega) eff * eff / omega = torque := by
  unfold electricPower motorPower
  constructor <;> field_simp

/-- The mass of the gearbox carries its torque at the specific torque, and its power at the speed of the output shaft. -/
theorem gearMass_torque (power omega ratio specific : ℝ) (ho : omega ≠ 0) (hr : ratio ≠ 0) (hs : specific ≠ 0) :
    gearMass (gearTorqueMax power omega ratio) specific * specific * (omega / ratio) = power := by
  unfold gearMass gearTorqueMax; field_simp

end Verif.Turboprop
