import Verif.Lemmas.AtmTables
import Verif.Props.Atmosphere
import Verif.Data.Standard
import Verif.Data.Tropical
import Verif.Data.Polar
import Verif.Data.Hot
import Verif.Data.Cold
import Verif.Data.MarsReference
import Verif.Data.MarsHellasHot
import Verif.Data.MarsHellasCold
import Verif.Data.MarsEquatorHot
import Verif.Data.MarsEquatorCold
import Verif.Data.MarsPolarHot
import Verif.Data.MarsPolarCold
import Verif.Data.Venus

/-!
# The shipped atmosphere tables

Statements about all altitudes inside the range of a table, for the tables of
`aviary/subsystems/atmosphere/data`. The finite part (the numbers of the file) is checked by the kernel;
the soundness theorems of `Verif.Lemmas.AtmTables` extend it to every real altitude.
-/

namespace Verif

set_option maxRecDepth 100000

/-! ## Shape of a table -/

/-- Altitudes strictly increasing, one row more than altitudes in every table, and the lower
extrapolation row starts from the first table value. -/
def AtmData.wf (D : AtmData) : Bool :=
  decide (2 ≤ D.alt.length) && incr D.alt &&
    [D.T, D.P, D.rho, D.dT].all (fun t => decide (t.rows.length = D.alt.length + 1) &&
      decide ((t.rows.getD 0 default).a = (t.rows.getD 1 default).a))

theorem bin_le (alt : List ℝ) (z : ℝ) : bin alt z ≤ alt.length := List.length_filter_le _ _

theorem AtmData.wf_len {D : AtmData} (h : D.wf = true) {t : CTab} (ht : t ∈ [D.T, D.P, D.rho, D.dT]) :
    t.rows.length = D.alt.length + 1 := by
  simp only [AtmData.wf, Bool.and_eq_true, List.all_eq_true, decide_eq_true_eq] at h
  exact (h.2 t ht).1

/-- No altitude, inside or outside the table, makes a lookup index out of range. -/
theorem atm_no_index_error {D : AtmData} (h : D.wf = true) {t : CTab}
    (ht : t ∈ [D.T, D.P, D.rho, D.dT]) (z : ℝ) : bin D.table.alt z < t.rows.length := by
  rw [D.wf_len h ht]
  have := bin_le D.table.alt z
  simp only [AtmData.table, List.length_map] at this ⊢
  omega

/-- Range of the table. -/
noncomputable def AtmData.lo (D : AtmData) : ℝ := loAlt D.ealt D.alt
noncomputable def AtmData.hi (D : AtmData) : ℝ := hiAlt D.ealt D.alt

/-- Evaluation of one table at a geopotential altitude, as the component does it. -/
noncomputable def AtmData.eval (D : AtmData) (t : CTab) (z : ℝ) : ℝ :=
  (t.lookup (bin D.table.alt z)).val (z - (D.table.alt.headD 0 :: D.table.alt).getD (bin D.table.alt z) 0)

theorem AtmData.eval_eq_piece {D : AtmData} (h : D.wf = true) {t : CTab}
    (ht : t ∈ [D.T, D.P, D.rho, D.dT]) {z : ℝ} (h1 : D.lo < z) (h2 : z ≤ D.hi) :
    D.eval t z = piece t D.ealt D.alt t.rows.tail z := by
  have hl := D.wf_len h ht
  cases hr : t.rows with
  | nil => rw [hr] at hl; simp at hl
  | cons r0 rs =>
    simp only [AtmData.wf, Bool.and_eq_true] at h
    have := lookup_eq_piece t D.ealt z D.alt rs (D.table.alt.headD 0) r0 h.1.2
      (by rw [hr] at hl; simp at hl; omega) h1 h2
    simpa [AtmData.eval, CTab.lookup, hr, AtmData.table] using this

theorem AtmData.eval_lo {D : AtmData} (h : D.wf = true) (t : CTab) :
    D.eval t D.lo = dec (t.rows.getD 0 default).a t.ea := by
  have hb : bin D.table.alt D.lo = 0 := by
    apply bin_zero
    intro a ha
    simp only [AtmData.table, List.mem_map] at ha
    obtain ⟨x, hx, rfl⟩ := ha
    simp only [AtmData.wf, Bool.and_eq_true] at h
    have hi := h.1.2
    cases hA : D.alt with
    | nil => rw [hA] at hx; simp at hx
    | cons y ys =>
      rw [hA] at hx hi
      simp only [AtmData.lo, loAlt, hA, List.headD_cons]
      rw [dec_le_dec]
      rcases List.mem_cons.1 hx with rfl | hx
      · exact le_rfl
      · exact (incr_head_lt hi x hx).le
  unfold AtmData.eval
  rw [hb]
  have hl : D.table.alt.headD 0 = D.lo := by
    simp only [AtmData.table, AtmData.lo, loAlt]
    cases hA : D.alt with
    | nil => simp [AtmData.wf, hA] at h
    | cons y ys => simp
  simp only [List.getD_cons_zero, hl, sub_self, CTab.lookup, CTab.cubic, Cubic.val, zero_mul, add_zero]

/-! ## Lower bounds -/

/-- `m` is a strict lower bound of table `t` (checked on Bernstein coefficients). -/
def AtmData.above (D : AtmData) (t : CTab) (m : ℤ) : Bool :=
  decide (m * 10 ^ t.ea < (t.rows.getD 0 default).a) && tabAbove t D.ealt m D.alt t.rows.tail

theorem AtmData.above_sound {D : AtmData} (h : D.wf = true) {t : CTab}
    (ht : t ∈ [D.T, D.P, D.rho, D.dT]) {m : ℤ} (hm : D.above t m = true) {z : ℝ} (h1 : D.lo ≤ z)
    (h2 : z ≤ D.hi) : (m : ℝ) < D.eval t z := by
  simp only [AtmData.above, Bool.and_eq_true, decide_eq_true_eq] at hm
  rcases eq_or_lt_of_le h1 with rfl | h1
  · rw [D.eval_lo h, dec, lt_div_iff₀ (by positivity)]
    exact_mod_cast hm.1
  · rw [D.eval_eq_piece h ht h1 h2]
    have hl := D.wf_len h ht
    simp only [AtmData.wf, Bool.and_eq_true] at h
    exact tabAbove_sound t D.ealt m z D.alt t.rows.tail h.1.2 (by simp [hl]) hm.2 h1 h2

/-- Temperature above `mT` kelvin, pressure and density positive. -/
def AtmData.pos (D : AtmData) (mT : ℤ) : Bool := D.above D.T mT && D.above D.P 0 && D.above D.rho 0

/-! ## Decrease with altitude -/

def AtmData.falls (D : AtmData) (t : CTab) : Bool := tabFalls t D.ealt D.alt t.rows.tail

theorem AtmData.falls_sound {D : AtmData} (h : D.wf = true) {t : CTab}
    (ht : t ∈ [D.T, D.P, D.rho, D.dT]) (hm : D.above t 0 = true) (hf : D.falls t = true) {y z : ℝ}
    (h1 : D.lo ≤ y) (hyz : y ≤ z) (h2 : z ≤ D.hi) :
    D.eval t z ≤ (1 + 1 / 10 ^ 12) * D.eval t y := by
  have hy := D.above_sound h ht hm h1 (hyz.trans h2)
  have hz := D.above_sound h ht hm (h1.trans hyz) h2
  have hl := D.wf_len h ht
  have hw := h
  simp only [AtmData.wf, Bool.and_eq_true, List.all_eq_true, decide_eq_true_eq] at hw
  have hr := (hw.2 t ht).2
  push_cast at hy hz
  have weak : ∀ x : ℝ, 0 < x → x ≤ (1 + 1 / 10 ^ 12) * x := fun x hx => by nlinarith
  rcases eq_or_lt_of_le h1 with rfl | h1'
  · rcases eq_or_lt_of_le hyz with rfl | hz1
    · exact weak _ hy
    · rw [D.eval_eq_piece h ht hz1 h2, D.eval_lo h]
      rw [D.eval_lo h] at hy
      refine le_trans ?_ (weak _ hy)
      rw [hr]
      cases hR : t.rows with
      | nil => rw [hR] at hl; simp at hl
      | cons r0 rs =>
        cases rs with
        | nil => rw [hR] at hl; simp at hl; rw [hl] at hw; simp at hw
        | cons r1 rs =>
          have := tabFalls_le_head t D.ealt z D.alt r1 rs hw.1.2 (by rw [hR] at hl; simp at hl; omega)
            (by simpa [AtmData.falls, hR] using hf) hz1 h2
          simpa using this
  · rw [D.eval_eq_piece h ht (h1'.trans_le hyz) h2, D.eval_eq_piece h ht h1' (hyz.trans h2)]
    rw [D.eval_eq_piece h ht h1' (hyz.trans h2)] at hy
    rcases tabFalls_sound t D.ealt y z hyz D.alt t.rows.tail hw.1.2 (by simp [hl]) hf h1' h2 with k | k
    · exact k
    · exact k.trans (weak _ hy)

/-! ## Exact evaluation at a rational altitude -/

def decQ (m : ℤ) (e : ℕ) : ℚ := (m : ℚ) / 10 ^ e

def CTab.valQ (t : CTab) (r : IRow) (x : ℚ) : ℚ :=
  decQ r.a t.ea + x * (decQ r.b t.eb + x * (decQ r.c t.ec + x * decQ r.d t.ed))

/-- `(row index, offset)` of the lookup, in exact arithmetic. -/
def binQ (eh : ℕ) (alts : List ℤ) (z : ℚ) : ℕ := (alts.filter (fun a => decide (decQ a eh < z))).length

def AtmData.evalQ (D : AtmData) (t : CTab) (z : ℚ) : ℚ :=
  let i := binQ D.ealt D.alt z
  t.valQ (t.rows.getD i default) (z - decQ ((D.alt.headD 0 :: D.alt).getD i 0) D.ealt)

theorem dec_eq_decQ (m : ℤ) (e : ℕ) : dec m e = ((decQ m e : ℚ) : ℝ) := by
  unfold dec decQ; push_cast; rfl

theorem binQ_eq (eh : ℕ) (alts : List ℤ) (z : ℚ) :
    bin (alts.map (dec · eh)) (z : ℝ) = binQ eh alts z := by
  unfold bin binQ
  rw [List.filter_map, List.length_map]
  congr 2
  funext a
  simp only [Function.comp, dec_eq_decQ, Rat.cast_lt]

theorem AtmData.eval_eq_evalQ (D : AtmData) (t : CTab) (hA : D.alt ≠ []) (z : ℚ) :
    D.eval t (z : ℝ) = ((D.evalQ t z : ℚ) : ℝ) := by
  have hb : bin D.table.alt (z : ℝ) = binQ D.ealt D.alt z := binQ_eq D.ealt D.alt z
  unfold AtmData.eval AtmData.evalQ
  rw [hb]
  have ho : ∀ i, (D.table.alt.headD 0 :: D.table.alt).getD i 0 =
      ((decQ ((D.alt.headD 0 :: D.alt).getD i 0) D.ealt : ℚ) : ℝ) := by
    intro i
    rw [← dec_eq_decQ]
    have h0 : (0 : ℝ) = dec 0 D.ealt := by simp [dec]
    have : D.table.alt.headD 0 :: D.table.alt = (D.alt.headD 0 :: D.alt).map (dec · D.ealt) := by
      simp only [AtmData.table]
      cases h : D.alt with
      | nil => exact absurd h hA
      | cons a l => simp
    rw [this, h0, List.getD_eq_getElem?_getD, List.getD_eq_getElem?_getD, List.getElem?_map]
    cases (D.alt.headD 0 :: D.alt)[i]? <;> rfl
  rw [ho]
  simp only [CTab.lookup, CTab.cubic, Cubic.val, CTab.valQ, dec_eq_decQ]
  push_cast
  rfl

/-! ## The component on a table -/

/-- The component runs on data file `D` and altitude `h` is inside its range. -/
structure OnTable (c : AtmCfg) (D : AtmData) (h : ℝ) : Prop where
  tab : c.tab = D.table
  lo : D.lo ≤ c.z h
  hi : c.z h ≤ D.hi

theorem OnTable.pressure {c : AtmCfg} {D : AtmData} {h : ℝ} (o : OnTable c D h) :
    c.pressure h = D.eval D.P (c.z h) := by
  simp [AtmCfg.pressure, AtmData.eval, AtmCfg.dx, o.tab]; rfl

theorem OnTable.rawDensity {c : AtmCfg} {D : AtmData} {h : ℝ} (o : OnTable c D h) :
    c.rawDensity h = D.eval D.rho (c.z h) := by
  simp [AtmCfg.rawDensity, AtmData.eval, AtmCfg.dx, o.tab]; rfl

theorem OnTable.temperature {c : AtmCfg} {D : AtmData} {h : ℝ} (o : OnTable c D h) :
    c.temperature h = D.eval D.T (c.z h) + c.dt := by
  simp [AtmCfg.temperature, AtmData.eval, AtmCfg.dx, o.tab]; rfl

theorem OnTable.tempSlopeTable {c : AtmCfg} {D : AtmData} {h : ℝ} (o : OnTable c D h) :
    c.tempSlopeTable h = D.eval D.dT (c.z h) := by
  simp [AtmCfg.tempSlopeTable, AtmData.eval, AtmCfg.dx, o.tab]; rfl

/-- Inside the range of a table that passed the check, temperature, pressure and density are positive
for every temperature offset `dt` that keeps the coldest table value positive (for the density, a
non-negative offset). -/
theorem atm_positive {c : AtmCfg} {D : AtmData} {mT : ℤ} (hw : D.wf = true) (hp : D.pos mT = true)
    {h : ℝ} (o : OnTable c D h) :
    (-(mT : ℝ) ≤ c.dt → 0 < c.temperature h) ∧ 0 < c.pressure h ∧ 0 < c.rawDensity h ∧
      (0 ≤ c.dt → 0 ≤ c.Rair → 0 < c.density h) := by
  simp only [AtmData.pos, Bool.and_eq_true] at hp
  have h1 := D.above_sound hw (by simp) hp.1.1 o.lo o.hi
  have h2 := D.above_sound hw (by simp) hp.1.2 o.lo o.hi
  have h3 := D.above_sound hw (by simp) hp.2 o.lo o.hi
  push_cast at h2 h3
  rw [← o.pressure] at h2
  rw [← o.rawDensity] at h3
  refine ⟨fun hd => ?_, h2, h3, fun hd hR => ?_⟩
  · rw [o.temperature]; linarith
  · unfold AtmCfg.density
    have := inv_pos.2 h2
    have := inv_pos.2 h3
    positivity

/-- Hence, off the table points, all partials of the component with respect to altitude are the true
derivatives, without further conditions (geopotential or geometric altitude, `dt ≥ 0`). -/
theorem atm_partials_on_table {c : AtmCfg} {D : AtmData} {mT : ℤ} (hw : D.wf = true)
    (hp : D.pos mT = true) (hmT : 0 ≤ mT) {h : ℝ} (o : OnTable c D h) (hz : c.z h ∉ c.tab.alt)
    (hR : c.geometric = true → c.R0 + h ≠ 0) (hdt : 0 ≤ c.dt) (hRa : 0 ≤ c.Rair) (hK : 0 < c.K)
    (hS : 0 ≤ c.S) :
    HasDerivAt c.temperature (c.jT h) h ∧ HasDerivAt c.pressure (c.jP h) h ∧
      HasDerivAt c.density (c.jRho h) h ∧ HasDerivAt c.sos (c.jSos h) h ∧
      HasDerivAt c.viscosity (c.jVisc h) h := by
  obtain ⟨hT, hP, hr, _⟩ := atm_positive hw hp o
  have hmT' : (0 : ℝ) ≤ mT := by exact_mod_cast hmT
  have hT' := hT (by linarith)
  refine ⟨atm_jT c h hR hz, atm_jP c h hR hz, atm_jRho c h hR hz hr.ne' hP.ne' ?_,
    atm_jSos c h hR hz (mul_pos hK hT'), atm_jVisc c h hR hz hT' (by linarith)⟩
  have := inv_pos.2 hP
  have := inv_pos.2 hr
  positivity

namespace AtmD

/-! ## The thirteen data files -/

theorem standard_wf : standard.wf = true := by decide +kernel
theorem standard_pos : standard.pos 187 = true := by decide +kernel
theorem tropical_wf : tropical.wf = true := by decide +kernel
theorem tropical_pos : tropical.pos 192 = true := by decide +kernel
theorem polar_wf : polar.wf = true := by decide +kernel
theorem polar_pos : polar.pos 210 = true := by decide +kernel
theorem hot_wf : hot.wf = true := by decide +kernel
theorem hot_pos : hot.pos 230 = true := by decide +kernel
theorem cold_wf : cold.wf = true := by decide +kernel
theorem cold_pos : cold.pos 185 = true := by decide +kernel
theorem marsReference_wf : marsReference.wf = true := by decide +kernel
theorem marsReference_pos : marsReference.pos 138 = true := by decide +kernel
theorem marsHellasHot_wf : marsHellasHot.wf = true := by decide +kernel
theorem marsHellasHot_pos : marsHellasHot.pos 137 = true := by decide +kernel
theorem marsHellasCold_wf : marsHellasCold.wf = true := by decide +kernel
theorem marsHellasCold_pos : marsHellasCold.pos 124 = true := by decide +kernel
theorem marsEquatorHot_wf : marsEquatorHot.wf = true := by decide +kernel
theorem marsEquatorHot_pos : marsEquatorHot.pos 122 = true := by decide +kernel
theorem marsEquatorCold_wf : marsEquatorCold.wf = true := by decide +kernel
theorem marsEquatorCold_pos : marsEquatorCold.pos 125 = true := by decide +kernel
theorem marsPolarHot_wf : marsPolarHot.wf = true := by decide +kernel
theorem marsPolarHot_pos : marsPolarHot.pos 132 = true := by decide +kernel
theorem marsPolarCold_wf : marsPolarCold.wf = true := by decide +kernel
theorem marsPolarCold_pos : marsPolarCold.pos 106 = true := by decide +kernel
theorem venus_wf : venus.wf = true := by decide +kernel
theorem venus_T_above : venus.above venus.T 156 = true := by decide +kernel

/-- The shipped tables, in the order of `atmosphere_lookup` (aviary/subsystems/atmosphere/utils/get_atmosphere_data.py:43-57). -/
def all : List AtmData :=
  [standard, tropical, polar, hot, cold, marsReference, marsHellasHot, marsHellasCold, marsEquatorHot, marsEquatorCold, marsPolarHot, marsPolarCold, venus]

/-- The tables whose pressure and density stay positive. -/
def positive : List AtmData :=
  [standard, tropical, polar, hot, cold, marsReference, marsHellasHot, marsHellasCold, marsEquatorHot, marsEquatorCold, marsPolarHot, marsPolarCold]

theorem all_wf : ∀ D ∈ all, D.wf = true := by
  simp only [all, List.forall_mem_cons, List.not_mem_nil, false_imp_iff, implies_true, and_true]
  exact ⟨standard_wf, tropical_wf, polar_wf, hot_wf, cold_wf, marsReference_wf, marsHellasHot_wf, marsHellasCold_wf, marsEquatorHot_wf, marsEquatorCold_wf, marsPolarHot_wf, marsPolarCold_wf, venus_wf⟩

/-- No shipped table lets an altitude index out of range. -/
theorem no_index_error : ∀ D ∈ all, ∀ t ∈ [D.T, D.P, D.rho, D.dT], ∀ z : ℝ,
    bin D.table.alt z < t.rows.length :=
  fun D hD _ ht z => atm_no_index_error (all_wf D hD) ht z

theorem positive_pos : ∀ D ∈ positive, ∃ m : ℤ, 0 ≤ m ∧ D.pos m = true := by
  simp only [positive, List.forall_mem_cons, List.not_mem_nil, false_imp_iff, implies_true, and_true]
  exact ⟨⟨187, by norm_num, standard_pos⟩, ⟨192, by norm_num, tropical_pos⟩, ⟨210, by norm_num, polar_pos⟩, ⟨230, by norm_num, hot_pos⟩, ⟨185, by norm_num, cold_pos⟩, ⟨138, by norm_num, marsReference_pos⟩, ⟨137, by norm_num, marsHellasHot_pos⟩, ⟨124, by norm_num, marsHellasCold_pos⟩, ⟨122, by norm_num, marsEquatorHot_pos⟩, ⟨125, by norm_num, marsEquatorCold_pos⟩, ⟨132, by norm_num, marsPolarHot_pos⟩, ⟨106, by norm_num, marsPolarCold_pos⟩⟩

/-- Twelve of the thirteen shipped atmospheres give positive temperature, pressure and density at
every altitude of their range (offset `dt ≥ 0`). -/
theorem positive_all : ∀ D ∈ positive, ∀ (c : AtmCfg) (h : ℝ), OnTable c D h → 0 ≤ c.dt →
    0 ≤ c.Rair → 0 < c.temperature h ∧ 0 < c.pressure h ∧ 0 < c.rawDensity h ∧ 0 < c.density h := by
  intro D hD c h o hdt hR
  have hw : D.wf = true := by
    apply all_wf
    revert hD
    simp only [positive, all, List.mem_cons, List.not_mem_nil, or_false]
    tauto
  obtain ⟨m, hm, hp⟩ := positive_pos D hD
  obtain ⟨a, b, e, f⟩ := atm_positive hw hp o
  have hm' : (0 : ℝ) ≤ m := by exact_mod_cast hm
  exact ⟨a (by linarith), b, e, f hdt hR⟩

/-- The range of the standard atmosphere is -5 km to 84.5 km geopotential altitude. -/
theorem standard_range : standard.lo = -5000 ∧ standard.hi = 84500 := by
  have h1 : standard.alt.headD 0 = -5000 := by decide +kernel
  have h2 : standard.alt.getLastD 0 = 84500 := by decide +kernel
  have h3 : standard.ealt = 0 := rfl
  simp only [AtmData.lo, AtmData.hi, loAlt, hiAlt, h1, h2, h3, dec]
  norm_num

/-- Venus: at 141.6 km, inside the table range, pressure and density are negative, because the last
Akima segment undershoots. -/
theorem venus_positive_violated : venus.lo ≤ 141600 ∧ (141600 : ℝ) ≤ venus.hi ∧
    venus.eval venus.P 141600 < 0 ∧ venus.eval venus.rho 141600 < 0 := by
  have hA : venus.alt ≠ [] := by decide +kernel
  have h1 : decQ (venus.alt.headD 0) venus.ealt ≤ 141600 := by decide +kernel
  have h2 : (141600 : ℚ) ≤ decQ (venus.alt.getLastD 0) venus.ealt := by decide +kernel
  have h3 : venus.evalQ venus.P 141600 < 0 := by decide +kernel
  have h4 : venus.evalQ venus.rho 141600 < 0 := by decide +kernel
  have e3 := venus.eval_eq_evalQ venus.P hA 141600
  have e4 := venus.eval_eq_evalQ venus.rho hA 141600
  push_cast at e3 e4
  refine ⟨?_, ?_, ?_, ?_⟩
  · rw [AtmData.lo, loAlt, dec_eq_decQ]; exact_mod_cast h1
  · rw [AtmData.hi, hiAlt, dec_eq_decQ]; exact_mod_cast h2
  · rw [e3]; exact_mod_cast h3
  · rw [e4]; exact_mod_cast h4

/-- Below the last knot (table point 26 of 27, i.e. without the last segment) Venus is fine: the
temperature is positive in the whole range. -/
theorem venus_temperature_partial (c : AtmCfg) (h : ℝ) (o : OnTable c venus h)
    (hd : -156 ≤ c.dt) : 0 < c.temperature h := by
  have h1 := venus.above_sound venus_wf (t := venus.T) (by simp) venus_T_above o.lo o.hi
  push_cast at h1
  rw [o.temperature]; linarith

/-! ### Decrease of pressure and density with altitude -/

theorem standard_P_falls : standard.falls standard.P = true := by decide +kernel
theorem standard_rho_falls : standard.falls standard.rho = true := by decide +kernel
theorem marsHellasHot_P_falls : marsHellasHot.falls marsHellasHot.P = true := by decide +kernel
theorem marsEquatorHot_P_falls : marsEquatorHot.falls marsEquatorHot.P = true := by decide +kernel
theorem marsEquatorHot_rho_falls : marsEquatorHot.falls marsEquatorHot.rho = true := by decide +kernel
theorem marsEquatorCold_P_falls : marsEquatorCold.falls marsEquatorCold.P = true := by decide +kernel
theorem marsEquatorCold_rho_falls : marsEquatorCold.falls marsEquatorCold.rho = true := by decide +kernel
theorem marsPolarHot_P_falls : marsPolarHot.falls marsPolarHot.P = true := by decide +kernel

theorem pos_P {D : AtmData} {m : ℤ} (h : D.pos m = true) : D.above D.P 0 = true := by
  simp only [AtmData.pos, Bool.and_eq_true] at h; exact h.1.2
theorem pos_rho {D : AtmData} {m : ℤ} (h : D.pos m = true) : D.above D.rho 0 = true := by
  simp only [AtmData.pos, Bool.and_eq_true] at h; exact h.2

/-- standard: pressure never rises with altitude (up to a relative jump of 10⁻¹² at the table points). -/
theorem standard_pressure_antitone (c : AtmCfg) (h k : ℝ) (oh : OnTable c standard h) (ok : OnTable c standard k)
    (hk : c.z h ≤ c.z k) : c.pressure k ≤ (1 + 1 / 10 ^ 12) * c.pressure h := by
  rw [oh.pressure, ok.pressure]
  exact AtmData.falls_sound standard_wf (by simp) (pos_P standard_pos) standard_P_falls oh.lo hk ok.hi

/-- standard: rawDensity never rises with altitude (up to a relative jump of 10⁻¹² at the table points). -/
theorem standard_rawDensity_antitone (c : AtmCfg) (h k : ℝ) (oh : OnTable c standard h) (ok : OnTable c standard k)
    (hk : c.z h ≤ c.z k) : c.rawDensity k ≤ (1 + 1 / 10 ^ 12) * c.rawDensity h := by
  rw [oh.rawDensity, ok.rawDensity]
  exact AtmData.falls_sound standard_wf (by simp) (pos_rho standard_pos) standard_rho_falls oh.lo hk ok.hi

/-- marsHellasHot: pressure never rises with altitude (up to a relative jump of 10⁻¹² at the table points). -/
theorem marsHellasHot_pressure_antitone (c : AtmCfg) (h k : ℝ) (oh : OnTable c marsHellasHot h) (ok : OnTable c marsHellasHot k)
    (hk : c.z h ≤ c.z k) : c.pressure k ≤ (1 + 1 / 10 ^ 12) * c.pressure h := by
  rw [oh.pressure, ok.pressure]
  exact AtmData.falls_sound marsHellasHot_wf (by simp) (pos_P marsHellasHot_pos) marsHellasHot_P_falls oh.lo hk ok.hi

/-- marsEquatorHot: pressure never rises with altitude (up to a relative jump of 10⁻¹² at the table points). -/
theorem marsEquatorHot_pressure_antitone (c : AtmCfg) (h k : ℝ) (oh : OnTable c marsEquatorHot h) (ok : OnTable c marsEquatorHot k)
    (hk : c.z h ≤ c.z k) : c.pressure k ≤ (1 + 1 / 10 ^ 12) * c.pressure h := by
  rw [oh.pressure, ok.pressure]
  exact AtmData.falls_sound marsEquatorHot_wf (by simp) (pos_P marsEquatorHot_pos) marsEquatorHot_P_falls oh.lo hk ok.hi

/-- marsEquatorHot: rawDensity never rises with altitude (up to a relative jump of 10⁻¹² at the table points). -/
theorem marsEquatorHot_rawDensity_antitone (c : AtmCfg) (h k : ℝ) (oh : OnTable c marsEquatorHot h) (ok : OnTable c marsEquatorHot k)
    (hk : c.z h ≤ c.z k) : c.rawDensity k ≤ (1 + 1 / 10 ^ 12) * c.rawDensity h := by
  rw [oh.rawDensity, ok.rawDensity]
  exact AtmData.falls_sound marsEquatorHot_wf (by simp) (pos_rho marsEquatorHot_pos) marsEquatorHot_rho_falls oh.lo hk ok.hi

/-- marsEquatorCold: pressure never rises with altitude (up to a relative jump of 10⁻¹² at the table points). -/
theorem marsEquatorCold_pressure_antitone (c : AtmCfg) (h k : ℝ) (oh : OnTable c marsEquatorCold h) (ok : OnTable c marsEquatorCold k)
    (hk : c.z h ≤ c.z k) : c.pressure k ≤ (1 + 1 / 10 ^ 12) * c.pressure h := by
  rw [oh.pressure, ok.pressure]
  exact AtmData.falls_sound marsEquatorCold_wf (by simp) (pos_P marsEquatorCold_pos) marsEquatorCold_P_falls oh.lo hk ok.hi

/-- marsEquatorCold: rawDensity never rises with altitude (up to a relative jump of 10⁻¹² at the table points). -/
theorem marsEquatorCold_rawDensity_antitone (c : AtmCfg) (h k : ℝ) (oh : OnTable c marsEquatorCold h) (ok : OnTable c marsEquatorCold k)
    (hk : c.z h ≤ c.z k) : c.rawDensity k ≤ (1 + 1 / 10 ^ 12) * c.rawDensity h := by
  rw [oh.rawDensity, ok.rawDensity]
  exact AtmData.falls_sound marsEquatorCold_wf (by simp) (pos_rho marsEquatorCold_pos) marsEquatorCold_rho_falls oh.lo hk ok.hi

/-- marsPolarHot: pressure never rises with altitude (up to a relative jump of 10⁻¹² at the table points). -/
theorem marsPolarHot_pressure_antitone (c : AtmCfg) (h k : ℝ) (oh : OnTable c marsPolarHot h) (ok : OnTable c marsPolarHot k)
    (hk : c.z h ≤ c.z k) : c.pressure k ≤ (1 + 1 / 10 ^ 12) * c.pressure h := by
  rw [oh.pressure, ok.pressure]
  exact AtmData.falls_sound marsPolarHot_wf (by simp) (pos_P marsPolarHot_pos) marsPolarHot_P_falls oh.lo hk ok.hi

/-- tropical: pressure rises by a relative 0.0021 from 7818.1 m to 7879.1 m. -/
theorem tropical_pressure_antitone_violated : (78181 / 10 : ℚ) < (78791 / 10 : ℚ) ∧
    tropical.lo ≤ (((78181 / 10 : ℚ) : ℚ) : ℝ) ∧ (((78791 / 10 : ℚ) : ℚ) : ℝ) ≤ tropical.hi ∧
    (1 + (((21 / 10000 : ℚ)) : ℝ)) * tropical.eval tropical.P (((78181 / 10 : ℚ) : ℚ) : ℝ) < tropical.eval tropical.P (((78791 / 10 : ℚ) : ℚ) : ℝ) := by
  have hA : tropical.alt ≠ [] := by decide +kernel
  have h1 : decQ (tropical.alt.headD 0) tropical.ealt ≤ (78181 / 10 : ℚ) := by decide +kernel
  have h2 : (78791 / 10 : ℚ) ≤ decQ (tropical.alt.getLastD 0) tropical.ealt := by decide +kernel
  have h3 : (1 + (21 / 10000 : ℚ)) * tropical.evalQ tropical.P (78181 / 10 : ℚ) < tropical.evalQ tropical.P (78791 / 10 : ℚ) := by
    decide +kernel
  refine ⟨by norm_num, ?_, ?_, ?_⟩
  · rw [AtmData.lo, loAlt, dec_eq_decQ]; exact_mod_cast h1
  · rw [AtmData.hi, hiAlt, dec_eq_decQ]; exact_mod_cast h2
  · rw [tropical.eval_eq_evalQ tropical.P hA, tropical.eval_eq_evalQ tropical.P hA]
    have := (Rat.cast_lt (K := ℝ)).2 h3
    rwa [Rat.cast_mul, Rat.cast_add, Rat.cast_one] at this

/-- tropical: rawDensity rises by a relative 0.022 from 23180 m to 23302 m. -/
theorem tropical_rawDensity_antitone_violated : (23180 / 1 : ℚ) < (23302 / 1 : ℚ) ∧
    tropical.lo ≤ (((23180 / 1 : ℚ) : ℚ) : ℝ) ∧ (((23302 / 1 : ℚ) : ℚ) : ℝ) ≤ tropical.hi ∧
    (1 + (((11 / 500 : ℚ)) : ℝ)) * tropical.eval tropical.rho (((23180 / 1 : ℚ) : ℚ) : ℝ) < tropical.eval tropical.rho (((23302 / 1 : ℚ) : ℚ) : ℝ) := by
  have hA : tropical.alt ≠ [] := by decide +kernel
  have h1 : decQ (tropical.alt.headD 0) tropical.ealt ≤ (23180 / 1 : ℚ) := by decide +kernel
  have h2 : (23302 / 1 : ℚ) ≤ decQ (tropical.alt.getLastD 0) tropical.ealt := by decide +kernel
  have h3 : (1 + (11 / 500 : ℚ)) * tropical.evalQ tropical.rho (23180 / 1 : ℚ) < tropical.evalQ tropical.rho (23302 / 1 : ℚ) := by
    decide +kernel
  refine ⟨by norm_num, ?_, ?_, ?_⟩
  · rw [AtmData.lo, loAlt, dec_eq_decQ]; exact_mod_cast h1
  · rw [AtmData.hi, hiAlt, dec_eq_decQ]; exact_mod_cast h2
  · rw [tropical.eval_eq_evalQ tropical.rho hA, tropical.eval_eq_evalQ tropical.rho hA]
    have := (Rat.cast_lt (K := ℝ)).2 h3
    rwa [Rat.cast_mul, Rat.cast_add, Rat.cast_one] at this

/-- polar: rawDensity rises by a relative 0.0031 from 14508.5 m to 14599.9 m. -/
theorem polar_rawDensity_antitone_violated : (29017 / 2 : ℚ) < (145999 / 10 : ℚ) ∧
    polar.lo ≤ (((29017 / 2 : ℚ) : ℚ) : ℝ) ∧ (((145999 / 10 : ℚ) : ℚ) : ℝ) ≤ polar.hi ∧
    (1 + (((31 / 10000 : ℚ)) : ℝ)) * polar.eval polar.rho (((29017 / 2 : ℚ) : ℚ) : ℝ) < polar.eval polar.rho (((145999 / 10 : ℚ) : ℚ) : ℝ) := by
  have hA : polar.alt ≠ [] := by decide +kernel
  have h1 : decQ (polar.alt.headD 0) polar.ealt ≤ (29017 / 2 : ℚ) := by decide +kernel
  have h2 : (145999 / 10 : ℚ) ≤ decQ (polar.alt.getLastD 0) polar.ealt := by decide +kernel
  have h3 : (1 + (31 / 10000 : ℚ)) * polar.evalQ polar.rho (29017 / 2 : ℚ) < polar.evalQ polar.rho (145999 / 10 : ℚ) := by
    decide +kernel
  refine ⟨by norm_num, ?_, ?_, ?_⟩
  · rw [AtmData.lo, loAlt, dec_eq_decQ]; exact_mod_cast h1
  · rw [AtmData.hi, hiAlt, dec_eq_decQ]; exact_mod_cast h2
  · rw [polar.eval_eq_evalQ polar.rho hA, polar.eval_eq_evalQ polar.rho hA]
    have := (Rat.cast_lt (K := ℝ)).2 h3
    rwa [Rat.cast_mul, Rat.cast_add, Rat.cast_one] at this

/-- hot: pressure rises by a relative 0.0074 from 16946.9 m to 17038.3 m. -/
theorem hot_pressure_antitone_violated : (169469 / 10 : ℚ) < (170383 / 10 : ℚ) ∧
    hot.lo ≤ (((169469 / 10 : ℚ) : ℚ) : ℝ) ∧ (((170383 / 10 : ℚ) : ℚ) : ℝ) ≤ hot.hi ∧
    (1 + (((37 / 5000 : ℚ)) : ℝ)) * hot.eval hot.P (((169469 / 10 : ℚ) : ℚ) : ℝ) < hot.eval hot.P (((170383 / 10 : ℚ) : ℚ) : ℝ) := by
  have hA : hot.alt ≠ [] := by decide +kernel
  have h1 : decQ (hot.alt.headD 0) hot.ealt ≤ (169469 / 10 : ℚ) := by decide +kernel
  have h2 : (170383 / 10 : ℚ) ≤ decQ (hot.alt.getLastD 0) hot.ealt := by decide +kernel
  have h3 : (1 + (37 / 5000 : ℚ)) * hot.evalQ hot.P (169469 / 10 : ℚ) < hot.evalQ hot.P (170383 / 10 : ℚ) := by
    decide +kernel
  refine ⟨by norm_num, ?_, ?_, ?_⟩
  · rw [AtmData.lo, loAlt, dec_eq_decQ]; exact_mod_cast h1
  · rw [AtmData.hi, hiAlt, dec_eq_decQ]; exact_mod_cast h2
  · rw [hot.eval_eq_evalQ hot.P hA, hot.eval_eq_evalQ hot.P hA]
    have := (Rat.cast_lt (K := ℝ)).2 h3
    rwa [Rat.cast_mul, Rat.cast_add, Rat.cast_one] at this

/-- hot: rawDensity rises by a relative 0.0068 from 16337.3 m to 16428.7 m. -/
theorem hot_rawDensity_antitone_violated : (163373 / 10 : ℚ) < (164287 / 10 : ℚ) ∧
    hot.lo ≤ (((163373 / 10 : ℚ) : ℚ) : ℝ) ∧ (((164287 / 10 : ℚ) : ℚ) : ℝ) ≤ hot.hi ∧
    (1 + (((17 / 2500 : ℚ)) : ℝ)) * hot.eval hot.rho (((163373 / 10 : ℚ) : ℚ) : ℝ) < hot.eval hot.rho (((164287 / 10 : ℚ) : ℚ) : ℝ) := by
  have hA : hot.alt ≠ [] := by decide +kernel
  have h1 : decQ (hot.alt.headD 0) hot.ealt ≤ (163373 / 10 : ℚ) := by decide +kernel
  have h2 : (164287 / 10 : ℚ) ≤ decQ (hot.alt.getLastD 0) hot.ealt := by decide +kernel
  have h3 : (1 + (17 / 2500 : ℚ)) * hot.evalQ hot.rho (163373 / 10 : ℚ) < hot.evalQ hot.rho (164287 / 10 : ℚ) := by
    decide +kernel
  refine ⟨by norm_num, ?_, ?_, ?_⟩
  · rw [AtmData.lo, loAlt, dec_eq_decQ]; exact_mod_cast h1
  · rw [AtmData.hi, hiAlt, dec_eq_decQ]; exact_mod_cast h2
  · rw [hot.eval_eq_evalQ hot.rho hA, hot.eval_eq_evalQ hot.rho hA]
    have := (Rat.cast_lt (K := ℝ)).2 h3
    rwa [Rat.cast_mul, Rat.cast_add, Rat.cast_one] at this

/-- cold: pressure rises by a relative 0.0074 from 16946.9 m to 17038.3 m. -/
theorem cold_pressure_antitone_violated : (169469 / 10 : ℚ) < (170383 / 10 : ℚ) ∧
    cold.lo ≤ (((169469 / 10 : ℚ) : ℚ) : ℝ) ∧ (((170383 / 10 : ℚ) : ℚ) : ℝ) ≤ cold.hi ∧
    (1 + (((37 / 5000 : ℚ)) : ℝ)) * cold.eval cold.P (((169469 / 10 : ℚ) : ℚ) : ℝ) < cold.eval cold.P (((170383 / 10 : ℚ) : ℚ) : ℝ) := by
  have hA : cold.alt ≠ [] := by decide +kernel
  have h1 : decQ (cold.alt.headD 0) cold.ealt ≤ (169469 / 10 : ℚ) := by decide +kernel
  have h2 : (170383 / 10 : ℚ) ≤ decQ (cold.alt.getLastD 0) cold.ealt := by decide +kernel
  have h3 : (1 + (37 / 5000 : ℚ)) * cold.evalQ cold.P (169469 / 10 : ℚ) < cold.evalQ cold.P (170383 / 10 : ℚ) := by
    decide +kernel
  refine ⟨by norm_num, ?_, ?_, ?_⟩
  · rw [AtmData.lo, loAlt, dec_eq_decQ]; exact_mod_cast h1
  · rw [AtmData.hi, hiAlt, dec_eq_decQ]; exact_mod_cast h2
  · rw [cold.eval_eq_evalQ cold.P hA, cold.eval_eq_evalQ cold.P hA]
    have := (Rat.cast_lt (K := ℝ)).2 h3
    rwa [Rat.cast_mul, Rat.cast_add, Rat.cast_one] at this

/-- cold: rawDensity rises by a relative 0.023 from 21244.6 m to 21488.4 m. -/
theorem cold_rawDensity_antitone_violated : (106223 / 5 : ℚ) < (107442 / 5 : ℚ) ∧
    cold.lo ≤ (((106223 / 5 : ℚ) : ℚ) : ℝ) ∧ (((107442 / 5 : ℚ) : ℚ) : ℝ) ≤ cold.hi ∧
    (1 + (((23 / 1000 : ℚ)) : ℝ)) * cold.eval cold.rho (((106223 / 5 : ℚ) : ℚ) : ℝ) < cold.eval cold.rho (((107442 / 5 : ℚ) : ℚ) : ℝ) := by
  have hA : cold.alt ≠ [] := by decide +kernel
  have h1 : decQ (cold.alt.headD 0) cold.ealt ≤ (106223 / 5 : ℚ) := by decide +kernel
  have h2 : (107442 / 5 : ℚ) ≤ decQ (cold.alt.getLastD 0) cold.ealt := by decide +kernel
  have h3 : (1 + (23 / 1000 : ℚ)) * cold.evalQ cold.rho (106223 / 5 : ℚ) < cold.evalQ cold.rho (107442 / 5 : ℚ) := by
    decide +kernel
  refine ⟨by norm_num, ?_, ?_, ?_⟩
  · rw [AtmData.lo, loAlt, dec_eq_decQ]; exact_mod_cast h1
  · rw [AtmData.hi, hiAlt, dec_eq_decQ]; exact_mod_cast h2
  · rw [cold.eval_eq_evalQ cold.rho hA, cold.eval_eq_evalQ cold.rho hA]
    have := (Rat.cast_lt (K := ℝ)).2 h3
    rwa [Rat.cast_mul, Rat.cast_add, Rat.cast_one] at this

/-- marsReference: pressure rises by a relative 0.049 from 79000 m to 80000 m. -/
theorem marsReference_pressure_antitone_violated : (79000 / 1 : ℚ) < (80000 / 1 : ℚ) ∧
    marsReference.lo ≤ (((79000 / 1 : ℚ) : ℚ) : ℝ) ∧ (((80000 / 1 : ℚ) : ℚ) : ℝ) ≤ marsReference.hi ∧
    (1 + (((49 / 1000 : ℚ)) : ℝ)) * marsReference.eval marsReference.P (((79000 / 1 : ℚ) : ℚ) : ℝ) < marsReference.eval marsReference.P (((80000 / 1 : ℚ) : ℚ) : ℝ) := by
  have hA : marsReference.alt ≠ [] := by decide +kernel
  have h1 : decQ (marsReference.alt.headD 0) marsReference.ealt ≤ (79000 / 1 : ℚ) := by decide +kernel
  have h2 : (80000 / 1 : ℚ) ≤ decQ (marsReference.alt.getLastD 0) marsReference.ealt := by decide +kernel
  have h3 : (1 + (49 / 1000 : ℚ)) * marsReference.evalQ marsReference.P (79000 / 1 : ℚ) < marsReference.evalQ marsReference.P (80000 / 1 : ℚ) := by
    decide +kernel
  refine ⟨by norm_num, ?_, ?_, ?_⟩
  · rw [AtmData.lo, loAlt, dec_eq_decQ]; exact_mod_cast h1
  · rw [AtmData.hi, hiAlt, dec_eq_decQ]; exact_mod_cast h2
  · rw [marsReference.eval_eq_evalQ marsReference.P hA, marsReference.eval_eq_evalQ marsReference.P hA]
    have := (Rat.cast_lt (K := ℝ)).2 h3
    rwa [Rat.cast_mul, Rat.cast_add, Rat.cast_one] at this

/-- marsReference: rawDensity rises by a relative 0.029 from 79000 m to 80000 m. -/
theorem marsReference_rawDensity_antitone_violated : (79000 / 1 : ℚ) < (80000 / 1 : ℚ) ∧
    marsReference.lo ≤ (((79000 / 1 : ℚ) : ℚ) : ℝ) ∧ (((80000 / 1 : ℚ) : ℚ) : ℝ) ≤ marsReference.hi ∧
    (1 + (((29 / 1000 : ℚ)) : ℝ)) * marsReference.eval marsReference.rho (((79000 / 1 : ℚ) : ℚ) : ℝ) < marsReference.eval marsReference.rho (((80000 / 1 : ℚ) : ℚ) : ℝ) := by
  have hA : marsReference.alt ≠ [] := by decide +kernel
  have h1 : decQ (marsReference.alt.headD 0) marsReference.ealt ≤ (79000 / 1 : ℚ) := by decide +kernel
  have h2 : (80000 / 1 : ℚ) ≤ decQ (marsReference.alt.getLastD 0) marsReference.ealt := by decide +kernel
  have h3 : (1 + (29 / 1000 : ℚ)) * marsReference.evalQ marsReference.rho (79000 / 1 : ℚ) < marsReference.evalQ marsReference.rho (80000 / 1 : ℚ) := by
    decide +kernel
  refine ⟨by norm_num, ?_, ?_, ?_⟩
  · rw [AtmData.lo, loAlt, dec_eq_decQ]; exact_mod_cast h1
  · rw [AtmData.hi, hiAlt, dec_eq_decQ]; exact_mod_cast h2
  · rw [marsReference.eval_eq_evalQ marsReference.rho hA, marsReference.eval_eq_evalQ marsReference.rho hA]
    have := (Rat.cast_lt (K := ℝ)).2 h3
    rwa [Rat.cast_mul, Rat.cast_add, Rat.cast_one] at this

/-- marsHellasHot: rawDensity rises by a relative 0.08 from -6115.1 m to -6105.1 m. -/
theorem marsHellasHot_rawDensity_antitone_violated : (-61151 / 10 : ℚ) < (-61051 / 10 : ℚ) ∧
    marsHellasHot.lo ≤ (((-61151 / 10 : ℚ) : ℚ) : ℝ) ∧ (((-61051 / 10 : ℚ) : ℚ) : ℝ) ≤ marsHellasHot.hi ∧
    (1 + (((2 / 25 : ℚ)) : ℝ)) * marsHellasHot.eval marsHellasHot.rho (((-61151 / 10 : ℚ) : ℚ) : ℝ) < marsHellasHot.eval marsHellasHot.rho (((-61051 / 10 : ℚ) : ℚ) : ℝ) := by
  have hA : marsHellasHot.alt ≠ [] := by decide +kernel
  have h1 : decQ (marsHellasHot.alt.headD 0) marsHellasHot.ealt ≤ (-61151 / 10 : ℚ) := by decide +kernel
  have h2 : (-61051 / 10 : ℚ) ≤ decQ (marsHellasHot.alt.getLastD 0) marsHellasHot.ealt := by decide +kernel
  have h3 : (1 + (2 / 25 : ℚ)) * marsHellasHot.evalQ marsHellasHot.rho (-61151 / 10 : ℚ) < marsHellasHot.evalQ marsHellasHot.rho (-61051 / 10 : ℚ) := by
    decide +kernel
  refine ⟨by norm_num, ?_, ?_, ?_⟩
  · rw [AtmData.lo, loAlt, dec_eq_decQ]; exact_mod_cast h1
  · rw [AtmData.hi, hiAlt, dec_eq_decQ]; exact_mod_cast h2
  · rw [marsHellasHot.eval_eq_evalQ marsHellasHot.rho hA, marsHellasHot.eval_eq_evalQ marsHellasHot.rho hA]
    have := (Rat.cast_lt (K := ℝ)).2 h3
    rwa [Rat.cast_mul, Rat.cast_add, Rat.cast_one] at this

/-- marsHellasCold: pressure rises by a relative 0.00017 from -6113.1 m to -6107.1 m. -/
theorem marsHellasCold_pressure_antitone_violated : (-61131 / 10 : ℚ) < (-61071 / 10 : ℚ) ∧
    marsHellasCold.lo ≤ (((-61131 / 10 : ℚ) : ℚ) : ℝ) ∧ (((-61071 / 10 : ℚ) : ℚ) : ℝ) ≤ marsHellasCold.hi ∧
    (1 + (((17 / 100000 : ℚ)) : ℝ)) * marsHellasCold.eval marsHellasCold.P (((-61131 / 10 : ℚ) : ℚ) : ℝ) < marsHellasCold.eval marsHellasCold.P (((-61071 / 10 : ℚ) : ℚ) : ℝ) := by
  have hA : marsHellasCold.alt ≠ [] := by decide +kernel
  have h1 : decQ (marsHellasCold.alt.headD 0) marsHellasCold.ealt ≤ (-61131 / 10 : ℚ) := by decide +kernel
  have h2 : (-61071 / 10 : ℚ) ≤ decQ (marsHellasCold.alt.getLastD 0) marsHellasCold.ealt := by decide +kernel
  have h3 : (1 + (17 / 100000 : ℚ)) * marsHellasCold.evalQ marsHellasCold.P (-61131 / 10 : ℚ) < marsHellasCold.evalQ marsHellasCold.P (-61071 / 10 : ℚ) := by
    decide +kernel
  refine ⟨by norm_num, ?_, ?_, ?_⟩
  · rw [AtmData.lo, loAlt, dec_eq_decQ]; exact_mod_cast h1
  · rw [AtmData.hi, hiAlt, dec_eq_decQ]; exact_mod_cast h2
  · rw [marsHellasCold.eval_eq_evalQ marsHellasCold.P hA, marsHellasCold.eval_eq_evalQ marsHellasCold.P hA]
    have := (Rat.cast_lt (K := ℝ)).2 h3
    rwa [Rat.cast_mul, Rat.cast_add, Rat.cast_one] at this

/-- marsHellasCold: rawDensity rises by a relative 0.0096 from -6115.1 m to -6105.1 m. -/
theorem marsHellasCold_rawDensity_antitone_violated : (-61151 / 10 : ℚ) < (-61051 / 10 : ℚ) ∧
    marsHellasCold.lo ≤ (((-61151 / 10 : ℚ) : ℚ) : ℝ) ∧ (((-61051 / 10 : ℚ) : ℚ) : ℝ) ≤ marsHellasCold.hi ∧
    (1 + (((6 / 625 : ℚ)) : ℝ)) * marsHellasCold.eval marsHellasCold.rho (((-61151 / 10 : ℚ) : ℚ) : ℝ) < marsHellasCold.eval marsHellasCold.rho (((-61051 / 10 : ℚ) : ℚ) : ℝ) := by
  have hA : marsHellasCold.alt ≠ [] := by decide +kernel
  have h1 : decQ (marsHellasCold.alt.headD 0) marsHellasCold.ealt ≤ (-61151 / 10 : ℚ) := by decide +kernel
  have h2 : (-61051 / 10 : ℚ) ≤ decQ (marsHellasCold.alt.getLastD 0) marsHellasCold.ealt := by decide +kernel
  have h3 : (1 + (6 / 625 : ℚ)) * marsHellasCold.evalQ marsHellasCold.rho (-61151 / 10 : ℚ) < marsHellasCold.evalQ marsHellasCold.rho (-61051 / 10 : ℚ) := by
    decide +kernel
  refine ⟨by norm_num, ?_, ?_, ?_⟩
  · rw [AtmData.lo, loAlt, dec_eq_decQ]; exact_mod_cast h1
  · rw [AtmData.hi, hiAlt, dec_eq_decQ]; exact_mod_cast h2
  · rw [marsHellasCold.eval_eq_evalQ marsHellasCold.rho hA, marsHellasCold.eval_eq_evalQ marsHellasCold.rho hA]
    have := (Rat.cast_lt (K := ℝ)).2 h3
    rwa [Rat.cast_mul, Rat.cast_add, Rat.cast_one] at this

/-- marsPolarHot: rawDensity rises by a relative 0.00087 from -1991 m to -1964 m. -/
theorem marsPolarHot_rawDensity_antitone_violated : (-1991 / 1 : ℚ) < (-1964 / 1 : ℚ) ∧
    marsPolarHot.lo ≤ (((-1991 / 1 : ℚ) : ℚ) : ℝ) ∧ (((-1964 / 1 : ℚ) : ℚ) : ℝ) ≤ marsPolarHot.hi ∧
    (1 + (((87 / 100000 : ℚ)) : ℝ)) * marsPolarHot.eval marsPolarHot.rho (((-1991 / 1 : ℚ) : ℚ) : ℝ) < marsPolarHot.eval marsPolarHot.rho (((-1964 / 1 : ℚ) : ℚ) : ℝ) := by
  have hA : marsPolarHot.alt ≠ [] := by decide +kernel
  have h1 : decQ (marsPolarHot.alt.headD 0) marsPolarHot.ealt ≤ (-1991 / 1 : ℚ) := by decide +kernel
  have h2 : (-1964 / 1 : ℚ) ≤ decQ (marsPolarHot.alt.getLastD 0) marsPolarHot.ealt := by decide +kernel
  have h3 : (1 + (87 / 100000 : ℚ)) * marsPolarHot.evalQ marsPolarHot.rho (-1991 / 1 : ℚ) < marsPolarHot.evalQ marsPolarHot.rho (-1964 / 1 : ℚ) := by
    decide +kernel
  refine ⟨by norm_num, ?_, ?_, ?_⟩
  · rw [AtmData.lo, loAlt, dec_eq_decQ]; exact_mod_cast h1
  · rw [AtmData.hi, hiAlt, dec_eq_decQ]; exact_mod_cast h2
  · rw [marsPolarHot.eval_eq_evalQ marsPolarHot.rho hA, marsPolarHot.eval_eq_evalQ marsPolarHot.rho hA]
    have := (Rat.cast_lt (K := ℝ)).2 h3
    rwa [Rat.cast_mul, Rat.cast_add, Rat.cast_one] at this

/-- marsPolarCold: pressure rises by a relative 0.12 from 79000 m to 80000 m. -/
theorem marsPolarCold_pressure_antitone_violated : (79000 / 1 : ℚ) < (80000 / 1 : ℚ) ∧
    marsPolarCold.lo ≤ (((79000 / 1 : ℚ) : ℚ) : ℝ) ∧ (((80000 / 1 : ℚ) : ℚ) : ℝ) ≤ marsPolarCold.hi ∧
    (1 + (((3 / 25 : ℚ)) : ℝ)) * marsPolarCold.eval marsPolarCold.P (((79000 / 1 : ℚ) : ℚ) : ℝ) < marsPolarCold.eval marsPolarCold.P (((80000 / 1 : ℚ) : ℚ) : ℝ) := by
  have hA : marsPolarCold.alt ≠ [] := by decide +kernel
  have h1 : decQ (marsPolarCold.alt.headD 0) marsPolarCold.ealt ≤ (79000 / 1 : ℚ) := by decide +kernel
  have h2 : (80000 / 1 : ℚ) ≤ decQ (marsPolarCold.alt.getLastD 0) marsPolarCold.ealt := by decide +kernel
  have h3 : (1 + (3 / 25 : ℚ)) * marsPolarCold.evalQ marsPolarCold.P (79000 / 1 : ℚ) < marsPolarCold.evalQ marsPolarCold.P (80000 / 1 : ℚ) := by
    decide +kernel
  refine ⟨by norm_num, ?_, ?_, ?_⟩
  · rw [AtmData.lo, loAlt, dec_eq_decQ]; exact_mod_cast h1
  · rw [AtmData.hi, hiAlt, dec_eq_decQ]; exact_mod_cast h2
  · rw [marsPolarCold.eval_eq_evalQ marsPolarCold.P hA, marsPolarCold.eval_eq_evalQ marsPolarCold.P hA]
    have := (Rat.cast_lt (K := ℝ)).2 h3
    rwa [Rat.cast_mul, Rat.cast_add, Rat.cast_one] at this

/-- marsPolarCold: rawDensity rises by a relative 0.036 from 79000 m to 80000 m. -/
theorem marsPolarCold_rawDensity_antitone_violated : (79000 / 1 : ℚ) < (80000 / 1 : ℚ) ∧
    marsPolarCold.lo ≤ (((79000 / 1 : ℚ) : ℚ) : ℝ) ∧ (((80000 / 1 : ℚ) : ℚ) : ℝ) ≤ marsPolarCold.hi ∧
    (1 + (((9 / 250 : ℚ)) : ℝ)) * marsPolarCold.eval marsPolarCold.rho (((79000 / 1 : ℚ) : ℚ) : ℝ) < marsPolarCold.eval marsPolarCold.rho (((80000 / 1 : ℚ) : ℚ) : ℝ) := by
  have hA : marsPolarCold.alt ≠ [] := by decide +kernel
  have h1 : decQ (marsPolarCold.alt.headD 0) marsPolarCold.ealt ≤ (79000 / 1 : ℚ) := by decide +kernel
  have h2 : (80000 / 1 : ℚ) ≤ decQ (marsPolarCold.alt.getLastD 0) marsPolarCold.ealt := by decide +kernel
  have h3 : (1 + (9 / 250 : ℚ)) * marsPolarCold.evalQ marsPolarCold.rho (79000 / 1 : ℚ) < marsPolarCold.evalQ marsPolarCold.rho (80000 / 1 : ℚ) := by
    decide +kernel
  refine ⟨by norm_num, ?_, ?_, ?_⟩
  · rw [AtmData.lo, loAlt, dec_eq_decQ]; exact_mod_cast h1
  · rw [AtmData.hi, hiAlt, dec_eq_decQ]; exact_mod_cast h2
  · rw [marsPolarCold.eval_eq_evalQ marsPolarCold.rho hA, marsPolarCold.eval_eq_evalQ marsPolarCold.rho hA]
    have := (Rat.cast_lt (K := ℝ)).2 h3
    rwa [Rat.cast_mul, Rat.cast_add, Rat.cast_one] at this

/-! ### Sea level density -/

/-- standard: `get_atmosphere_data` finds a sea level row, and the density reported there is the density
the component computes at altitude zero, up to a relative 10⁻¹². -/
theorem standard_seaLevel : ∃ ρ : ℝ, standard.seaLevelDensity = some ρ ∧ 0 < ρ ∧
    |standard.eval standard.rho 0 - ρ| ≤ ρ / 10 ^ 12 := by
  have hA : standard.alt ≠ [] := by decide +kernel
  have hr : standard.seaLevelRow = some 101 := by decide +kernel
  have h0 : 0 < decQ (standard.rho.rows.getD 101 default).a standard.rho.ea := by decide +kernel
  have h1 : standard.evalQ standard.rho 0 - decQ (standard.rho.rows.getD 101 default).a standard.rho.ea ≤
      decQ (standard.rho.rows.getD 101 default).a standard.rho.ea / 10 ^ 12 := by decide +kernel
  have h2 : -(decQ (standard.rho.rows.getD 101 default).a standard.rho.ea / 10 ^ 12) ≤
      standard.evalQ standard.rho 0 - decQ (standard.rho.rows.getD 101 default).a standard.rho.ea := by decide +kernel
  refine ⟨((decQ (standard.rho.rows.getD 101 default).a standard.rho.ea : ℚ) : ℝ), ?_, by exact_mod_cast h0, ?_⟩
  · simp [AtmData.seaLevelDensity, hr, CTab.lookup, CTab.cubic, dec_eq_decQ]
  · have e := standard.eval_eq_evalQ standard.rho hA 0
    push_cast at e
    rw [e, abs_le]
    constructor
    · exact_mod_cast h2
    · exact_mod_cast h1

/-- tropical: `get_atmosphere_data` finds a sea level row, and the density reported there is the density
the component computes at altitude zero, up to a relative 10⁻¹². -/
theorem tropical_seaLevel : ∃ ρ : ℝ, tropical.seaLevelDensity = some ρ ∧ 0 < ρ ∧
    |tropical.eval tropical.rho 0 - ρ| ≤ ρ / 10 ^ 12 := by
  have hA : tropical.alt ≠ [] := by decide +kernel
  have hr : tropical.seaLevelRow = some 1 := by decide +kernel
  have h0 : 0 < decQ (tropical.rho.rows.getD 1 default).a tropical.rho.ea := by decide +kernel
  have h1 : tropical.evalQ tropical.rho 0 - decQ (tropical.rho.rows.getD 1 default).a tropical.rho.ea ≤
      decQ (tropical.rho.rows.getD 1 default).a tropical.rho.ea / 10 ^ 12 := by decide +kernel
  have h2 : -(decQ (tropical.rho.rows.getD 1 default).a tropical.rho.ea / 10 ^ 12) ≤
      tropical.evalQ tropical.rho 0 - decQ (tropical.rho.rows.getD 1 default).a tropical.rho.ea := by decide +kernel
  refine ⟨((decQ (tropical.rho.rows.getD 1 default).a tropical.rho.ea : ℚ) : ℝ), ?_, by exact_mod_cast h0, ?_⟩
  · simp [AtmData.seaLevelDensity, hr, CTab.lookup, CTab.cubic, dec_eq_decQ]
  · have e := tropical.eval_eq_evalQ tropical.rho hA 0
    push_cast at e
    rw [e, abs_le]
    constructor
    · exact_mod_cast h2
    · exact_mod_cast h1

/-- polar: `get_atmosphere_data` finds a sea level row, and the density reported there is the density
the component computes at altitude zero, up to a relative 10⁻¹². -/
theorem polar_seaLevel : ∃ ρ : ℝ, polar.seaLevelDensity = some ρ ∧ 0 < ρ ∧
    |polar.eval polar.rho 0 - ρ| ≤ ρ / 10 ^ 12 := by
  have hA : polar.alt ≠ [] := by decide +kernel
  have hr : polar.seaLevelRow = some 1 := by decide +kernel
  have h0 : 0 < decQ (polar.rho.rows.getD 1 default).a polar.rho.ea := by decide +kernel
  have h1 : polar.evalQ polar.rho 0 - decQ (polar.rho.rows.getD 1 default).a polar.rho.ea ≤
      decQ (polar.rho.rows.getD 1 default).a polar.rho.ea / 10 ^ 12 := by decide +kernel
  have h2 : -(decQ (polar.rho.rows.getD 1 default).a polar.rho.ea / 10 ^ 12) ≤
      polar.evalQ polar.rho 0 - decQ (polar.rho.rows.getD 1 default).a polar.rho.ea := by decide +kernel
  refine ⟨((decQ (polar.rho.rows.getD 1 default).a polar.rho.ea : ℚ) : ℝ), ?_, by exact_mod_cast h0, ?_⟩
  · simp [AtmData.seaLevelDensity, hr, CTab.lookup, CTab.cubic, dec_eq_decQ]
  · have e := polar.eval_eq_evalQ polar.rho hA 0
    push_cast at e
    rw [e, abs_le]
    constructor
    · exact_mod_cast h2
    · exact_mod_cast h1

/-- hot: `get_atmosphere_data` finds a sea level row, and the density reported there is the density
the component computes at altitude zero, up to a relative 10⁻¹². -/
theorem hot_seaLevel : ∃ ρ : ℝ, hot.seaLevelDensity = some ρ ∧ 0 < ρ ∧
    |hot.eval hot.rho 0 - ρ| ≤ ρ / 10 ^ 12 := by
  have hA : hot.alt ≠ [] := by decide +kernel
  have hr : hot.seaLevelRow = some 1 := by decide +kernel
  have h0 : 0 < decQ (hot.rho.rows.getD 1 default).a hot.rho.ea := by decide +kernel
  have h1 : hot.evalQ hot.rho 0 - decQ (hot.rho.rows.getD 1 default).a hot.rho.ea ≤
      decQ (hot.rho.rows.getD 1 default).a hot.rho.ea / 10 ^ 12 := by decide +kernel
  have h2 : -(decQ (hot.rho.rows.getD 1 default).a hot.rho.ea / 10 ^ 12) ≤
      hot.evalQ hot.rho 0 - decQ (hot.rho.rows.getD 1 default).a hot.rho.ea := by decide +kernel
  refine ⟨((decQ (hot.rho.rows.getD 1 default).a hot.rho.ea : ℚ) : ℝ), ?_, by exact_mod_cast h0, ?_⟩
  · simp [AtmData.seaLevelDensity, hr, CTab.lookup, CTab.cubic, dec_eq_decQ]
  · have e := hot.eval_eq_evalQ hot.rho hA 0
    push_cast at e
    rw [e, abs_le]
    constructor
    · exact_mod_cast h2
    · exact_mod_cast h1

/-- cold: `get_atmosphere_data` finds a sea level row, and the density reported there is the density
the component computes at altitude zero, up to a relative 10⁻¹². -/
theorem cold_seaLevel : ∃ ρ : ℝ, cold.seaLevelDensity = some ρ ∧ 0 < ρ ∧
    |cold.eval cold.rho 0 - ρ| ≤ ρ / 10 ^ 12 := by
  have hA : cold.alt ≠ [] := by decide +kernel
  have hr : cold.seaLevelRow = some 1 := by decide +kernel
  have h0 : 0 < decQ (cold.rho.rows.getD 1 default).a cold.rho.ea := by decide +kernel
  have h1 : cold.evalQ cold.rho 0 - decQ (cold.rho.rows.getD 1 default).a cold.rho.ea ≤
      decQ (cold.rho.rows.getD 1 default).a cold.rho.ea / 10 ^ 12 := by decide +kernel
  have h2 : -(decQ (cold.rho.rows.getD 1 default).a cold.rho.ea / 10 ^ 12) ≤
      cold.evalQ cold.rho 0 - decQ (cold.rho.rows.getD 1 default).a cold.rho.ea := by decide +kernel
  refine ⟨((decQ (cold.rho.rows.getD 1 default).a cold.rho.ea : ℚ) : ℝ), ?_, by exact_mod_cast h0, ?_⟩
  · simp [AtmData.seaLevelDensity, hr, CTab.lookup, CTab.cubic, dec_eq_decQ]
  · have e := cold.eval_eq_evalQ cold.rho hA 0
    push_cast at e
    rw [e, abs_le]
    constructor
    · exact_mod_cast h2
    · exact_mod_cast h1

/-- marsReference: `get_atmosphere_data` finds a sea level row, and the density reported there is the density
the component computes at altitude zero, up to a relative 10⁻¹². -/
theorem marsReference_seaLevel : ∃ ρ : ℝ, marsReference.seaLevelDensity = some ρ ∧ 0 < ρ ∧
    |marsReference.eval marsReference.rho 0 - ρ| ≤ ρ / 10 ^ 12 := by
  have hA : marsReference.alt ≠ [] := by decide +kernel
  have hr : marsReference.seaLevelRow = some 11 := by decide +kernel
  have h0 : 0 < decQ (marsReference.rho.rows.getD 11 default).a marsReference.rho.ea := by decide +kernel
  have h1 : marsReference.evalQ marsReference.rho 0 - decQ (marsReference.rho.rows.getD 11 default).a marsReference.rho.ea ≤
      decQ (marsReference.rho.rows.getD 11 default).a marsReference.rho.ea / 10 ^ 12 := by decide +kernel
  have h2 : -(decQ (marsReference.rho.rows.getD 11 default).a marsReference.rho.ea / 10 ^ 12) ≤
      marsReference.evalQ marsReference.rho 0 - decQ (marsReference.rho.rows.getD 11 default).a marsReference.rho.ea := by decide +kernel
  refine ⟨((decQ (marsReference.rho.rows.getD 11 default).a marsReference.rho.ea : ℚ) : ℝ), ?_, by exact_mod_cast h0, ?_⟩
  · simp [AtmData.seaLevelDensity, hr, CTab.lookup, CTab.cubic, dec_eq_decQ]
  · have e := marsReference.eval_eq_evalQ marsReference.rho hA 0
    push_cast at e
    rw [e, abs_le]
    constructor
    · exact_mod_cast h2
    · exact_mod_cast h1

/-- marsHellasHot: `get_atmosphere_data` finds a sea level row, and the density reported there is the density
the component computes at altitude zero, up to a relative 10⁻¹². -/
theorem marsHellasHot_seaLevel : ∃ ρ : ℝ, marsHellasHot.seaLevelDensity = some ρ ∧ 0 < ρ ∧
    |marsHellasHot.eval marsHellasHot.rho 0 - ρ| ≤ ρ / 10 ^ 12 := by
  have hA : marsHellasHot.alt ≠ [] := by decide +kernel
  have hr : marsHellasHot.seaLevelRow = some 11 := by decide +kernel
  have h0 : 0 < decQ (marsHellasHot.rho.rows.getD 11 default).a marsHellasHot.rho.ea := by decide +kernel
  have h1 : marsHellasHot.evalQ marsHellasHot.rho 0 - decQ (marsHellasHot.rho.rows.getD 11 default).a marsHellasHot.rho.ea ≤
      decQ (marsHellasHot.rho.rows.getD 11 default).a marsHellasHot.rho.ea / 10 ^ 12 := by decide +kernel
  have h2 : -(decQ (marsHellasHot.rho.rows.getD 11 default).a marsHellasHot.rho.ea / 10 ^ 12) ≤
      marsHellasHot.evalQ marsHellasHot.rho 0 - decQ (marsHellasHot.rho.rows.getD 11 default).a marsHellasHot.rho.ea := by decide +kernel
  refine ⟨((decQ (marsHellasHot.rho.rows.getD 11 default).a marsHellasHot.rho.ea : ℚ) : ℝ), ?_, by exact_mod_cast h0, ?_⟩
  · simp [AtmData.seaLevelDensity, hr, CTab.lookup, CTab.cubic, dec_eq_decQ]
  · have e := marsHellasHot.eval_eq_evalQ marsHellasHot.rho hA 0
    push_cast at e
    rw [e, abs_le]
    constructor
    · exact_mod_cast h2
    · exact_mod_cast h1

/-- marsHellasCold: `get_atmosphere_data` finds a sea level row, and the density reported there is the density
the component computes at altitude zero, up to a relative 10⁻¹². -/
theorem marsHellasCold_seaLevel : ∃ ρ : ℝ, marsHellasCold.seaLevelDensity = some ρ ∧ 0 < ρ ∧
    |marsHellasCold.eval marsHellasCold.rho 0 - ρ| ≤ ρ / 10 ^ 12 := by
  have hA : marsHellasCold.alt ≠ [] := by decide +kernel
  have hr : marsHellasCold.seaLevelRow = some 11 := by decide +kernel
  have h0 : 0 < decQ (marsHellasCold.rho.rows.getD 11 default).a marsHellasCold.rho.ea := by decide +kernel
  have h1 : marsHellasCold.evalQ marsHellasCold.rho 0 - decQ (marsHellasCold.rho.rows.getD 11 default).a marsHellasCold.rho.ea ≤
      decQ (marsHellasCold.rho.rows.getD 11 default).a marsHellasCold.rho.ea / 10 ^ 12 := by decide +kernel
  have h2 : -(decQ (marsHellasCold.rho.rows.getD 11 default).a marsHellasCold.rho.ea / 10 ^ 12) ≤
      marsHellasCold.evalQ marsHellasCold.rho 0 - decQ (marsHellasCold.rho.rows.getD 11 default).a marsHellasCold.rho.ea := by decide +kernel
  refine ⟨((decQ (marsHellasCold.rho.rows.getD 11 default).a marsHellasCold.rho.ea : ℚ) : ℝ), ?_, by exact_mod_cast h0, ?_⟩
  · simp [AtmData.seaLevelDensity, hr, CTab.lookup, CTab.cubic, dec_eq_decQ]
  · have e := marsHellasCold.eval_eq_evalQ marsHellasCold.rho hA 0
    push_cast at e
    rw [e, abs_le]
    constructor
    · exact_mod_cast h2
    · exact_mod_cast h1

/-- marsEquatorHot: `get_atmosphere_data` finds a sea level row, and the density reported there is the density
the component computes at altitude zero, up to a relative 10⁻¹². -/
theorem marsEquatorHot_seaLevel : ∃ ρ : ℝ, marsEquatorHot.seaLevelDensity = some ρ ∧ 0 < ρ ∧
    |marsEquatorHot.eval marsEquatorHot.rho 0 - ρ| ≤ ρ / 10 ^ 12 := by
  have hA : marsEquatorHot.alt ≠ [] := by decide +kernel
  have hr : marsEquatorHot.seaLevelRow = some 7 := by decide +kernel
  have h0 : 0 < decQ (marsEquatorHot.rho.rows.getD 7 default).a marsEquatorHot.rho.ea := by decide +kernel
  have h1 : marsEquatorHot.evalQ marsEquatorHot.rho 0 - decQ (marsEquatorHot.rho.rows.getD 7 default).a marsEquatorHot.rho.ea ≤
      decQ (marsEquatorHot.rho.rows.getD 7 default).a marsEquatorHot.rho.ea / 10 ^ 12 := by decide +kernel
  have h2 : -(decQ (marsEquatorHot.rho.rows.getD 7 default).a marsEquatorHot.rho.ea / 10 ^ 12) ≤
      marsEquatorHot.evalQ marsEquatorHot.rho 0 - decQ (marsEquatorHot.rho.rows.getD 7 default).a marsEquatorHot.rho.ea := by decide +kernel
  refine ⟨((decQ (marsEquatorHot.rho.rows.getD 7 default).a marsEquatorHot.rho.ea : ℚ) : ℝ), ?_, by exact_mod_cast h0, ?_⟩
  · simp [AtmData.seaLevelDensity, hr, CTab.lookup, CTab.cubic, dec_eq_decQ]
  · have e := marsEquatorHot.eval_eq_evalQ marsEquatorHot.rho hA 0
    push_cast at e
    rw [e, abs_le]
    constructor
    · exact_mod_cast h2
    · exact_mod_cast h1

/-- marsEquatorCold: `get_atmosphere_data` finds a sea level row, and the density reported there is the density
the component computes at altitude zero, up to a relative 10⁻¹². -/
theorem marsEquatorCold_seaLevel : ∃ ρ : ℝ, marsEquatorCold.seaLevelDensity = some ρ ∧ 0 < ρ ∧
    |marsEquatorCold.eval marsEquatorCold.rho 0 - ρ| ≤ ρ / 10 ^ 12 := by
  have hA : marsEquatorCold.alt ≠ [] := by decide +kernel
  have hr : marsEquatorCold.seaLevelRow = some 7 := by decide +kernel
  have h0 : 0 < decQ (marsEquatorCold.rho.rows.getD 7 default).a marsEquatorCold.rho.ea := by decide +kernel
  have h1 : marsEquatorCold.evalQ marsEquatorCold.rho 0 - decQ (marsEquatorCold.rho.rows.getD 7 default).a marsEquatorCold.rho.ea ≤
      decQ (marsEquatorCold.rho.rows.getD 7 default).a marsEquatorCold.rho.ea / 10 ^ 12 := by decide +kernel
  have h2 : -(decQ (marsEquatorCold.rho.rows.getD 7 default).a marsEquatorCold.rho.ea / 10 ^ 12) ≤
      marsEquatorCold.evalQ marsEquatorCold.rho 0 - decQ (marsEquatorCold.rho.rows.getD 7 default).a marsEquatorCold.rho.ea := by decide +kernel
  refine ⟨((decQ (marsEquatorCold.rho.rows.getD 7 default).a marsEquatorCold.rho.ea : ℚ) : ℝ), ?_, by exact_mod_cast h0, ?_⟩
  · simp [AtmData.seaLevelDensity, hr, CTab.lookup, CTab.cubic, dec_eq_decQ]
  · have e := marsEquatorCold.eval_eq_evalQ marsEquatorCold.rho hA 0
    push_cast at e
    rw [e, abs_le]
    constructor
    · exact_mod_cast h2
    · exact_mod_cast h1

/-- marsPolarHot: `get_atmosphere_data` finds a sea level row, and the density reported there is the density
the component computes at altitude zero, up to a relative 10⁻¹². -/
theorem marsPolarHot_seaLevel : ∃ ρ : ℝ, marsPolarHot.seaLevelDensity = some ρ ∧ 0 < ρ ∧
    |marsPolarHot.eval marsPolarHot.rho 0 - ρ| ≤ ρ / 10 ^ 12 := by
  have hA : marsPolarHot.alt ≠ [] := by decide +kernel
  have hr : marsPolarHot.seaLevelRow = some 7 := by decide +kernel
  have h0 : 0 < decQ (marsPolarHot.rho.rows.getD 7 default).a marsPolarHot.rho.ea := by decide +kernel
  have h1 : marsPolarHot.evalQ marsPolarHot.rho 0 - decQ (marsPolarHot.rho.rows.getD 7 default).a marsPolarHot.rho.ea ≤
      decQ (marsPolarHot.rho.rows.getD 7 default).a marsPolarHot.rho.ea / 10 ^ 12 := by decide +kernel
  have h2 : -(decQ (marsPolarHot.rho.rows.getD 7 default).a marsPolarHot.rho.ea / 10 ^ 12) ≤
      marsPolarHot.evalQ marsPolarHot.rho 0 - decQ (marsPolarHot.rho.rows.getD 7 default).a marsPolarHot.rho.ea := by decide +kernel
  refine ⟨((decQ (marsPolarHot.rho.rows.getD 7 default).a marsPolarHot.rho.ea : ℚ) : ℝ), ?_, by exact_mod_cast h0, ?_⟩
  · simp [AtmData.seaLevelDensity, hr, CTab.lookup, CTab.cubic, dec_eq_decQ]
  · have e := marsPolarHot.eval_eq_evalQ marsPolarHot.rho hA 0
    push_cast at e
    rw [e, abs_le]
    constructor
    · exact_mod_cast h2
    · exact_mod_cast h1

/-- marsPolarCold: `get_atmosphere_data` finds a sea level row, and the density reported there is the density
the component computes at altitude zero, up to a relative 10⁻¹². -/
theorem marsPolarCold_seaLevel : ∃ ρ : ℝ, marsPolarCold.seaLevelDensity = some ρ ∧ 0 < ρ ∧
    |marsPolarCold.eval marsPolarCold.rho 0 - ρ| ≤ ρ / 10 ^ 12 := by
  have hA : marsPolarCold.alt ≠ [] := by decide +kernel
  have hr : marsPolarCold.seaLevelRow = some 7 := by decide +kernel
  have h0 : 0 < decQ (marsPolarCold.rho.rows.getD 7 default).a marsPolarCold.rho.ea := by decide +kernel
  have h1 : marsPolarCold.evalQ marsPolarCold.rho 0 - decQ (marsPolarCold.rho.rows.getD 7 default).a marsPolarCold.rho.ea ≤
      decQ (marsPolarCold.rho.rows.getD 7 default).a marsPolarCold.rho.ea / 10 ^ 12 := by decide +kernel
  have h2 : -(decQ (marsPolarCold.rho.rows.getD 7 default).a marsPolarCold.rho.ea / 10 ^ 12) ≤
      marsPolarCold.evalQ marsPolarCold.rho 0 - decQ (marsPolarCold.rho.rows.getD 7 default).a marsPolarCold.rho.ea := by decide +kernel
  refine ⟨((decQ (marsPolarCold.rho.rows.getD 7 default).a marsPolarCold.rho.ea : ℚ) : ℝ), ?_, by exact_mod_cast h0, ?_⟩
  · simp [AtmData.seaLevelDensity, hr, CTab.lookup, CTab.cubic, dec_eq_decQ]
  · have e := marsPolarCold.eval_eq_evalQ marsPolarCold.rho hA 0
    push_cast at e
    rw [e, abs_le]
    constructor
    · exact_mod_cast h2
    · exact_mod_cast h1

/-- venus: `get_atmosphere_data` finds a sea level row, and the density reported there is the density
the component computes at altitude zero, up to a relative 10⁻¹². -/
theorem venus_seaLevel : ∃ ρ : ℝ, venus.seaLevelDensity = some ρ ∧ 0 < ρ ∧
    |venus.eval venus.rho 0 - ρ| ≤ ρ / 10 ^ 12 := by
  have hA : venus.alt ≠ [] := by decide +kernel
  have hr : venus.seaLevelRow = some 1 := by decide +kernel
  have h0 : 0 < decQ (venus.rho.rows.getD 1 default).a venus.rho.ea := by decide +kernel
  have h1 : venus.evalQ venus.rho 0 - decQ (venus.rho.rows.getD 1 default).a venus.rho.ea ≤
      decQ (venus.rho.rows.getD 1 default).a venus.rho.ea / 10 ^ 12 := by decide +kernel
  have h2 : -(decQ (venus.rho.rows.getD 1 default).a venus.rho.ea / 10 ^ 12) ≤
      venus.evalQ venus.rho 0 - decQ (venus.rho.rows.getD 1 default).a venus.rho.ea := by decide +kernel
  refine ⟨((decQ (venus.rho.rows.getD 1 default).a venus.rho.ea : ℚ) : ℝ), ?_, by exact_mod_cast h0, ?_⟩
  · simp [AtmData.seaLevelDensity, hr, CTab.lookup, CTab.cubic, dec_eq_decQ]
  · have e := venus.eval_eq_evalQ venus.rho hA 0
    push_cast at e
    rw [e, abs_le]
    constructor
    · exact_mod_cast h2
    · exact_mod_cast h1

/-! ### The slope table behind `dsos_dh` -/

def CTab.slopeQ (t : CTab) (r : IRow) (x : ℚ) : ℚ :=
  decQ r.b t.eb + x * (2 * decQ r.c t.ec + 3 * decQ r.d t.ed * x)

/-- Slope of the temperature table at a rational altitude, in exact arithmetic. -/
def slopeQ (D : AtmData) (z : ℚ) : ℚ :=
  let i := binQ D.ealt D.alt z
  CTab.slopeQ D.T (D.T.rows.getD i default) (z - decQ ((D.alt.headD 0 :: D.alt).getD i 0) D.ealt)

theorem slope_eq (c : AtmCfg) (D : AtmData) (hA : D.alt ≠ []) (ht : c.tab = D.table) (h : ℝ) (z : ℚ)
    (hz : c.z h = (z : ℝ)) : c.dT h = ((slopeQ D z : ℚ) : ℝ) ∧
      c.tempSlopeTable h = ((D.evalQ D.dT z : ℚ) : ℝ) := by
  have hb : bin D.table.alt (z : ℝ) = binQ D.ealt D.alt z := binQ_eq D.ealt D.alt z
  constructor
  · unfold AtmCfg.dT slopeQ AtmCfg.dx
    rw [ht, hz, hb]
    have ho : (D.table.alt.headD 0 :: D.table.alt).getD (binQ D.ealt D.alt z) 0 =
        ((decQ ((D.alt.headD 0 :: D.alt).getD (binQ D.ealt D.alt z) 0) D.ealt : ℚ) : ℝ) := by
      rw [← dec_eq_decQ]
      have h0 : (0 : ℝ) = dec 0 D.ealt := by simp [dec]
      have : D.table.alt.headD 0 :: D.table.alt = (D.alt.headD 0 :: D.alt).map (dec · D.ealt) := by
        simp only [AtmData.table]
        cases h : D.alt with
        | nil => exact absurd h hA
        | cons a l => simp
      rw [this, h0, List.getD_eq_getElem?_getD, List.getD_eq_getElem?_getD, List.getElem?_map]
      cases (D.alt.headD 0 :: D.alt)[binQ D.ealt D.alt z]? <;> rfl
    rw [ho]
    simp only [AtmData.table, CTab.lookup, CTab.cubic, Cubic.slope, CTab.slopeQ, dec_eq_decQ]
    push_cast
    rfl
  · rw [← D.eval_eq_evalQ D.dT hA z, ← hz]
    unfold AtmCfg.tempSlopeTable AtmData.eval AtmCfg.dx
    rw [ht]; rfl

/-- The output `dsos_dh` is built from a second table fitted through the slopes at the table points.
In the bin just below the tropopause of the standard atmosphere (10950 m to 11000 m) it is off by more than 0.004 K/m (the
lapse rate below is 0.0065 K/m); `c` is any configuration using geopotential altitude. -/
theorem standard_slope_table_violated (c : AtmCfg) (ht : c.tab = standard.table)
    (hg : c.geometric = false) :
    c.tempSlopeTable 10975 < c.dT 10975 - 4 / 1000 ∨ c.dT 10975 + 4 / 1000 < c.tempSlopeTable 10975 := by
  have hA : standard.alt ≠ [] := by decide +kernel
  obtain ⟨h1, h2⟩ := slope_eq c standard hA ht 10975 10975 (by simp [AtmCfg.z, hg])
  have k : standard.evalQ standard.dT 10975 < slopeQ standard 10975 - 4 / 1000 ∨
      slopeQ standard 10975 + 4 / 1000 < standard.evalQ standard.dT 10975 := by decide +kernel
  rw [h1, h2]
  rcases k with k | k
  · left; have := (Rat.cast_lt (K := ℝ)).2 k; push_cast at this ⊢; linarith
  · right; have := (Rat.cast_lt (K := ℝ)).2 k; push_cast at this ⊢; linarith

/-- Mars (Hellas, hot): the slope table is off by more than 3 K/m in the ten metre bin from -6115.1 m. -/
theorem marsHellasHot_slope_table_violated (c : AtmCfg) (ht : c.tab = marsHellasHot.table)
    (hg : c.geometric = false) :
    c.tempSlopeTable (-61101 / 10) < c.dT (-61101 / 10) - 3 ∨ c.dT (-61101 / 10) + 3 < c.tempSlopeTable (-61101 / 10) := by
  have hA : marsHellasHot.alt ≠ [] := by decide +kernel
  obtain ⟨h1, h2⟩ := slope_eq c marsHellasHot hA ht (-61101 / 10) (-61101 / 10) (by simp [AtmCfg.z, hg])
  have k : marsHellasHot.evalQ marsHellasHot.dT (-61101 / 10) < slopeQ marsHellasHot (-61101 / 10) - 3 ∨
      slopeQ marsHellasHot (-61101 / 10) + 3 < marsHellasHot.evalQ marsHellasHot.dT (-61101 / 10) := by decide +kernel
  rw [h1, h2]
  rcases k with k | k
  · left; have := (Rat.cast_lt (K := ℝ)).2 k; push_cast at this ⊢; linarith
  · right; have := (Rat.cast_lt (K := ℝ)).2 k; push_cast at this ⊢; linarith


end AtmD

end Verif
