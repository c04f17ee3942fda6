import Verif.Model.MassSummation
import Mathlib.Tactic.Ring
import Mathlib.Tactic.Linarith
import Mathlib.Tactic.Positivity
import Mathlib.Tactic.NormNum

/-!
# Mass statement identities and single-sweep execution of the mass summation groups
-/

namespace Verif.MassSum

/-! ## Execution order -/

/-- The component only depends on the variables it declares (and the nacelle vector). -/
def Comp.Local (c : Comp) : Prop :=
  ∀ e e' : Env, (∀ v ∈ c.reads, e.s v = e'.s v) → e.nacelle = e'.nacelle → c.f e = c.f e'

/-- No component reads a variable written by itself or by a later component, and no variable is
written twice. -/
def Ordered : List Comp → Prop
  | [] => True
  | c :: cs => c.out ∉ c.reads ∧ (∀ d ∈ cs, d.out ∉ c.reads ∧ d.out ≠ c.out) ∧ Ordered cs

theorem run_nacelle (cs : List Comp) (e : Env) : (run cs e).nacelle = e.nacelle := by
  induction cs generalizing e with
  | nil => rfl
  | cons c cs ih => simp only [run, ih]; rfl

theorem run_untouched (cs : List Comp) (e : Env) (v : V) (h : ∀ d ∈ cs, d.out ≠ v) :
    (run cs e).s v = e.s v := by
  induction cs generalizing e with
  | nil => rfl
  | cons c cs ih =>
    rw [run, ih _ (fun d hd => h d (by simp [hd]))]
    simp [Comp.exec, Env.set, (h c (by simp)).symm]

/-- After one sweep over an ordered group of local components every component equation holds: the
value stored for its output is its `compute` of the final store. -/
theorem run_solved (cs : List Comp) (hl : ∀ c ∈ cs, c.Local) (ho : Ordered cs) (e : Env) :
    ∀ c ∈ cs, (run cs e).s c.out = c.f (run cs e) := by
  induction cs generalizing e with
  | nil => intro c hc; simp at hc
  | cons d ds ih =>
    obtain ⟨h1, h2, h3⟩ := ho
    intro c hc
    rcases List.mem_cons.1 hc with rfl | hc
    · rw [run, run_untouched _ _ _ (fun x hx => (h2 x hx).2)]
      have : c.f e = c.f (run ds (c.exec e)) := by
        apply hl c (by simp)
        · intro v hv
          rw [run_untouched _ _ _ (fun x hx hxv => (h2 x hx).1 (hxv ▸ hv))]
          have : v ≠ c.out := fun hh => h1 (hh ▸ hv)
          simp [Comp.exec, Env.set, this]
        · rw [run_nacelle]; rfl
      rw [← this]; simp [Comp.exec, Env.set]
    · exact ih (fun x hx => hl x (by simp [hx])) h3 _ c hc

/-- A store in which every component equation holds is left unchanged by the group. -/
theorem run_fixed (cs : List Comp) (e : Env) (h : ∀ c ∈ cs, e.s c.out = c.f e) : run cs e = e := by
  induction cs with
  | nil => rfl
  | cons c cs ih =>
    have hc : c.exec e = e := by
      cases e with
      | mk s nac =>
        have := h c (by simp)
        simp only [Comp.exec, Env.set] at this ⊢
        congr 1
        funext w
        by_cases hw : w = c.out
        · subst hw; simp [this]
        · simp [hw]
    rw [run, hc, ih (fun x hx => h x (by simp [hx]))]

/-- One sweep over an ordered group is converged: a second sweep changes nothing. -/
theorem run_idem (cs : List Comp) (hl : ∀ c ∈ cs, c.Local) (ho : Ordered cs) (e : Env) :
    run cs (run cs e) = run cs e :=
  run_fixed cs _ (run_solved cs hl ho e)

theorem flops_ordered (alt : Bool) (n : List ℕ) : Ordered (flops alt n) := by
  cases alt <;>
  simp [flops, Ordered, fEmpennage, fStructure, fPropulsion, fControls, fSystems, fSystemsBaseAlt,
    fSystemsAlt, fMargin, fEmpty, fEmptyAlt, fItems, fOperating, fZeroFuel, fUseful]

theorem gasp_ordered : Ordered gasp := by
  simp [gasp, Ordered, gEmpennage, gStructure, gPropulsion, gSystems, gEmpty, gItems, fOperating,
    fZeroFuel, fUseful]

theorem flops_local (alt : Bool) (n : List ℕ) : ∀ c ∈ flops alt n, c.Local := by
  intro c hc e e' h hn
  cases alt <;>
  simp only [flops, List.mem_append, List.mem_cons, List.not_mem_nil, or_false, if_true,
    Bool.false_eq_true, if_false] at hc <;>
  rcases hc with (((rfl | rfl | rfl | rfl) | hc) | rfl | rfl | rfl | rfl | rfl | rfl) <;>
  first
  | (simp only [fEmpennage, fStructure, fPropulsion, fControls, fMargin, fEmpty, fEmptyAlt, fItems,
      fOperating, fZeroFuel, fUseful, List.mem_cons, List.not_mem_nil, or_false,
      forall_eq_or_imp, forall_eq] at h ⊢
     simp only [h, hn]
     done)
  | (subst hc
     simp only [fSystems, List.mem_cons, List.not_mem_nil, or_false,
      forall_eq_or_imp, forall_eq] at h ⊢
     simp only [h])
  | (rcases hc with rfl | rfl <;>
     simp only [fSystemsBaseAlt, fSystemsAlt, List.mem_cons, List.not_mem_nil, or_false,
      forall_eq_or_imp, forall_eq] at h ⊢ <;>
     simp only [h])

theorem gasp_local : ∀ c ∈ gasp, c.Local := by
  intro c hc e e' h hn
  simp only [gasp, List.mem_cons, List.not_mem_nil, or_false] at hc
  rcases hc with rfl | rfl | rfl | rfl | rfl | rfl | rfl | rfl | rfl <;>
  (simp only [gEmpennage, gStructure, gPropulsion, gSystems, gEmpty, gItems, fOperating, fZeroFuel,
    fUseful, List.mem_cons, List.not_mem_nil, or_false, forall_eq_or_imp, forall_eq] at h ⊢
   simp only [h])

/-- The FLOPS mass summation group is converged after one sweep. -/
theorem flops_one_sweep (alt : Bool) (n : List ℕ) (e : Env) :
    run (flops alt n) (run (flops alt n) e) = run (flops alt n) e :=
  run_idem _ (flops_local alt n) (flops_ordered alt n) e

/-- The GASP mass summation group is converged after one sweep. -/
theorem gasp_one_sweep (e : Env) : run gasp (run gasp e) = run gasp e :=
  run_idem _ gasp_local gasp_ordered e

/-- Order matters: with the empty mass before its margin the first sweep is stale. -/
example : ¬ Ordered [fEmpty, fMargin] := by
  simp [Ordered, fEmpty, fMargin]

/-! ## What the totals are made of -/

/-- Total of the listed leaf masses. -/
def total (e : Env) (l : List V) : ℚ := (l.map e.s).sum

/-- Leaf masses of the standard FLOPS empty mass, without nacelles, margin and external subsystems. -/
def flopsDry : List V :=
  [.canard, .fins, .htail, .vtail, .fuselage, .gear, .paint, .wing,
   .fuelSystem, .miscProp, .thrustReversers, .engines, .battery,
   .airCond, .antiIcing, .apu, .avionics, .electrical, .furnishings, .hydraulics, .instruments,
   .surfaceControl]

/-- The alternate method uses the base furnishings mass. -/
def flopsDryAlt : List V :=
  [.canard, .fins, .htail, .vtail, .fuselage, .gear, .paint, .wing,
   .fuelSystem, .miscProp, .thrustReversers, .engines, .battery,
   .airCond, .antiIcing, .apu, .avionics, .electrical, .furnishingsBase, .hydraulics, .instruments,
   .surfaceControl]

def flopsItems : List V :=
  [.cargoContainer, .cabinCrew, .flightCrew, .passengerService, .unusableFuel, .engineOil,
   .additionalItems]

def gaspDry : List V :=
  [.htail, .vtail, .fuselage, .gear, .enginePod, .wing, .structIncrement,
   .fuelSystem, .engComb, .propellers, .battery,
   .airCond, .antiIcing, .apu, .avionics, .electrical, .furnishings, .hydraulics, .instruments,
   .controls, .oxygen]

def gaspItems : List V :=
  [.cargoContainer, .cabinCrew, .flightCrew, .passengerService, .unusableFuel, .engineOil,
   .emergencyEquip, .additionalItems]

theorem flopsDry_nodup : flopsDry.Nodup ∧ flopsDryAlt.Nodup ∧ flopsItems.Nodup ∧
    gaspDry.Nodup ∧ gaspItems.Nodup := by decide

local macro "eval_run" : tactic => `(tactic|
  simp [flops, gasp, run, Comp.exec, Env.set, fEmpennage, fStructure, fPropulsion, fControls,
    fSystems, fSystemsBaseAlt, fSystemsAlt, fMargin, fEmpty, fEmptyAlt, fItems, fOperating,
    fZeroFuel, fUseful, gEmpennage, gStructure, gPropulsion, gSystems, gEmpty, gItems])

/-- Standard FLOPS: every leaf mass enters the empty mass exactly once, nacelles once per engine,
and the margin is the scaler times that total; external subsystems carry no margin. -/
theorem flops_empty (n : List ℕ) (e : Env) :
    (run (flops false n) e).s .empty =
      (total e flopsDry + dot e.nacelle n) * (1 + e.s .marginScaler) + e.s .external := by
  eval_run
  simp [total, flopsDry]
  ring

/-- Alternate FLOPS: one more percent of the same total (with base furnishings). -/
theorem flops_alt_empty (n : List ℕ) (e : Env) :
    (run (flops true n) e).s .empty =
      (101 / 100) * (total e flopsDryAlt + dot e.nacelle n) * (1 + e.s .marginScaler)
        + e.s .external := by
  eval_run
  simp [total, flopsDryAlt]
  ring

/-- With either method the reported group masses add up to the empty mass, although the alternate
`AltEmptyMass` does not read the systems and equipment mass. -/
theorem flops_groups_add_up (alt : Bool) (n : List ℕ) (e : Env) :
    let r := run (flops alt n) e
    r.s .empty = r.s .structure + r.s .propulsion + r.s .systems + r.s .margin + r.s .external := by
  intro r
  cases alt
  · have := run_solved _ (flops_local false n) (flops_ordered false n) e fEmpty (by simp [flops])
    simpa [fEmpty] using this
  · have h1 := run_solved _ (flops_local true n) (flops_ordered true n) e fEmptyAlt
      (by simp [flops])
    have h2 := run_solved _ (flops_local true n) (flops_ordered true n) e fSystemsAlt
      (by simp [flops])
    simp only [fEmptyAlt, fSystemsAlt] at h1 h2
    simp only [r]
    rw [h1, h2]; ring

/-- FLOPS: zero-fuel mass = empty mass + operating items + payload, each item exactly once. -/
theorem flops_zeroFuel (alt : Bool) (n : List ℕ) (e : Env) :
    (run (flops alt n) e).s .zeroFuel =
      (run (flops alt n) e).s .empty + total e flopsItems + e.s .payload := by
  cases alt <;>
  · eval_run
    simp [total, flopsItems]
    ring

/-- FLOPS: the useful load splits into operating items, payload and what is left for fuel. -/
theorem flops_useful (alt : Bool) (n : List ℕ) (e : Env) :
    (run (flops alt n) e).s .usefulLoad =
      total e flopsItems + e.s .payload + (e.s .gross - (run (flops alt n) e).s .zeroFuel) := by
  rw [flops_zeroFuel]
  have : (run (flops alt n) e).s .usefulLoad = e.s .gross - (run (flops alt n) e).s .empty := by
    cases alt <;> eval_run
  rw [this]; ring

/-- GASP: every leaf mass enters the empty mass exactly once. -/
theorem gasp_empty (e : Env) :
    (run gasp e).s .empty = total e gaspDry + e.s .external := by
  eval_run
  simp [total, gaspDry]
  ring

theorem gasp_zeroFuel (e : Env) :
    (run gasp e).s .zeroFuel = total e gaspDry + e.s .external + total e gaspItems + e.s .payload := by
  eval_run
  simp [total, gaspDry, gaspItems]
  ring

theorem gasp_useful (e : Env) :
    (run gasp e).s .usefulLoad =
      total e gaspItems + e.s .payload + (e.s .gross - (run gasp e).s .zeroFuel) := by
  have h := gasp_empty e
  rw [gasp_zeroFuel]
  have : (run gasp e).s .usefulLoad = e.s .gross - (run gasp e).s .empty := by eval_run
  rw [this, h]; ring

/-! ## Nacelles and signs -/

theorem dot_nonneg (x : List ℚ) (n : List ℕ) (h : ∀ a ∈ x, 0 ≤ a) : 0 ≤ dot x n := by
  induction x generalizing n with
  | nil => simp [dot]
  | cons a x ih =>
    cases n with
    | nil => simp [dot]
    | cons k n =>
      have h1 : 0 ≤ a := h a (by simp)
      have h2 := ih n (fun b hb => h b (by simp [hb]))
      simp only [dot]
      positivity

/-- Engines of one type merged into one entry, or split over two entries of equal nacelle mass,
give the same structure mass. -/
theorem dot_split (a : ℚ) (x : List ℚ) (k l : ℕ) (n : List ℕ) :
    dot (a :: a :: x) (k :: l :: n) = dot (a :: x) ((k + l) :: n) := by
  simp only [dot]; push_cast; ring

theorem total_nonneg (e : Env) (l : List V) (h : ∀ v ∈ l, 0 ≤ e.s v) : 0 ≤ total e l := by
  unfold total
  induction l with
  | nil => simp
  | cons a l ih =>
    have h1 := h a (by simp)
    have h2 := ih (fun v hv => h v (by simp [hv]))
    simp only [List.map_cons, List.sum_cons]
    linarith

/-- FLOPS: with non-negative leaf masses and margin scaler, 0 ≤ empty ≤ operating ≤ zero-fuel. -/
theorem flops_monotone_chain (alt : Bool) (n : List ℕ) (e : Env) (h : ∀ v, 0 ≤ e.s v)
    (hn : ∀ a ∈ e.nacelle, 0 ≤ a) :
    let r := run (flops alt n) e
    0 ≤ r.s .empty ∧ r.s .empty ≤ r.s .operating ∧ r.s .operating ≤ r.s .zeroFuel := by
  intro r
  have hd := dot_nonneg e.nacelle n hn
  have h1 := total_nonneg e flopsDry (fun v _ => h v)
  have h2 := total_nonneg e flopsDryAlt (fun v _ => h v)
  have h3 := total_nonneg e flopsItems (fun v _ => h v)
  have hs := h .marginScaler
  have hx := h .external
  have hz : r.s .zeroFuel = r.s .operating + e.s .payload := by
    simp only [r]; cases alt <;> eval_run
  have ho : r.s .operating = r.s .empty + total e flopsItems := by
    have := flops_zeroFuel alt n e
    simp only [r] at hz ⊢
    rw [hz] at this; linarith
  refine ⟨?_, by rw [ho]; linarith, by rw [hz]; linarith [h .payload]⟩
  cases alt
  · simp only [r, flops_empty]; positivity
  · simp only [r, flops_alt_empty]; positivity

/-- GASP version of the chain. -/
theorem gasp_monotone_chain (e : Env) (h : ∀ v, 0 ≤ e.s v) :
    let r := run gasp e
    0 ≤ r.s .empty ∧ r.s .empty ≤ r.s .operating ∧ r.s .operating ≤ r.s .zeroFuel := by
  intro r
  have h1 := total_nonneg e gaspDry (fun v _ => h v)
  have h3 := total_nonneg e gaspItems (fun v _ => h v)
  have hx := h .external
  have hz : r.s .zeroFuel = r.s .operating + e.s .payload := by simp only [r]; eval_run
  have he : r.s .empty = total e gaspDry + e.s .external := gasp_empty e
  have ho : r.s .operating = r.s .empty + total e gaspItems := by
    have := gasp_zeroFuel e
    simp only [r] at hz he ⊢
    rw [hz] at this; linarith
  exact ⟨by rw [he]; linarith, by rw [ho]; linarith, by rw [hz]; linarith [h .payload]⟩

/-- A concrete store: all masses 10, margin scaler 1/10 of it, two engine types. -/
def exEnv : Env := ⟨fun v => if v = .marginScaler then 1 / 10 else 10, [7, 9]⟩

example : (run (flops false [2, 1]) exEnv).s .empty = (220 + 23) * (11 / 10) + 10 := by
  rw [flops_empty]; simp [total, flopsDry, exEnv, dot]; norm_num

example : (∀ v, 0 ≤ exEnv.s v) ∧ ∀ a ∈ exEnv.nacelle, 0 ≤ a := by
  constructor
  · intro v; unfold exEnv; dsimp only; split_ifs <;> norm_num
  · intro a ha; simp [exEnv] at ha; rcases ha with rfl | rfl <;> norm_num

end Verif.MassSum
