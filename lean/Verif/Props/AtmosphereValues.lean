import Verif.Model.Atmosphere
import Mathlib.Data.List.Sort
import Mathlib.Tactic.Positivity
import Mathlib.Tactic.FieldSimp
import Mathlib.Tactic.Ring

/-!
# C45: values of the atmosphere component
-/

namespace Verif
noncomputable section
open Classical

/-- Between point `i` (excluded) and point `i+1` (included) of a strictly increasing table, `i+1` points are below. -/
theorem bin_inside (alt : List ℝ) (hs : alt.Pairwise (· < ·)) (i : ℕ) (hi : i + 1 < alt.length) (z : ℝ)
    (h1 : alt[i] < z) (h2 : z ≤ alt[i + 1]) : bin alt z = i + 1 := by
  have hsplit : alt = alt.take (i + 1) ++ alt.drop (i + 1) := (List.take_append_drop _ _).symm
  have hlow : ∀ t ∈ alt.take (i + 1), t < z := by
    intro t ht
    obtain ⟨j, hj, rfl⟩ := List.mem_iff_getElem.1 ht
    simp only [List.length_take] at hj
    rw [List.getElem_take]
    rcases Nat.lt_or_ge j i with h | h
    · exact lt_trans (List.pairwise_iff_getElem.1 hs j i (by omega) (by omega) h) h1
    · have : j = i := by omega
      subst this; exact h1
  have hhigh : ∀ t ∈ alt.drop (i + 1), ¬ t < z := by
    intro t ht
    obtain ⟨j, hj, rfl⟩ := List.mem_iff_getElem.1 ht
    simp only [List.length_drop] at hj
    rw [List.getElem_drop, not_lt]
    rcases Nat.eq_zero_or_pos j with h | h
    · subst h; simpa using h2
    · exact h2.trans (List.pairwise_iff_getElem.1 hs (i + 1) (i + 1 + j) (by omega) (by omega) (by omega)).le
  unfold bin
  rw [hsplit, List.filter_append, List.filter_eq_self.2 (by simpa using hlow),
    List.filter_eq_nil_iff.2 (by simpa using hhigh)]
  simp; omega

/-- At and below the first point no point is below. -/
theorem bin_below (t0 : ℝ) (l : List ℝ) (hs : (t0 :: l).Pairwise (· < ·)) (z : ℝ) (h : z ≤ t0) :
    bin (t0 :: l) z = 0 := by
  unfold bin
  rw [List.length_eq_zero_iff, List.filter_eq_nil_iff]
  intro t ht
  rcases List.mem_cons.1 ht with rfl | ht
  · simpa using h
  · have := (List.pairwise_cons.1 hs).1 t ht
    simp; linarith

/-- Above the last point all points are below. -/
theorem bin_above (alt : List ℝ) (z : ℝ) (h : ∀ t ∈ alt, t < z) : bin alt z = alt.length := by
  unfold bin; rw [List.filter_eq_self.2 (by simpa using h)]

variable (c : AtmCfg)

/-- **C45 (bin and offset).** Between two table points every looked-up output is the cubic of that bin evaluated at the
distance to the lower point; temperature is raised by the offset. -/
theorem atm_values (hs : c.tab.alt.Pairwise (· < ·)) (h : ℝ) (i : ℕ) (hi : i + 1 < c.tab.alt.length)
    (h1 : c.tab.alt[i] < c.z h) (h2 : c.z h ≤ c.tab.alt[i + 1]) :
    c.temperature h = (c.tab.T (i + 1)).val (c.z h - c.tab.alt[i]) + c.dt ∧
    c.pressure h = (c.tab.P (i + 1)).val (c.z h - c.tab.alt[i]) ∧
    c.rawDensity h = (c.tab.rho (i + 1)).val (c.z h - c.tab.alt[i]) ∧
    c.tempSlopeTable h = (c.tab.dT (i + 1)).val (c.z h - c.tab.alt[i]) := by
  have hb := bin_inside c.tab.alt hs i hi _ h1 h2
  have hd : c.dx (c.z h) = c.z h - c.tab.alt[i] := by
    unfold AtmCfg.dx; rw [hb]
    simp [List.getD_cons_succ, List.getD_eq_getElem?_getD, List.getElem?_eq_getElem (show i < c.tab.alt.length by omega)]
  refine ⟨?_, ?_, ?_, ?_⟩ <;>
    simp only [AtmCfg.temperature, AtmCfg.pressure, AtmCfg.rawDensity, AtmCfg.tempSlopeTable, hb, hd]

/-- **C45 (below the table).** At and below the first point the first bin is used, measured from the first point. -/
theorem atm_values_below (t0 : ℝ) (l : List ℝ) (ht : c.tab.alt = t0 :: l) (hs : c.tab.alt.Pairwise (· < ·)) (h : ℝ)
    (hz : c.z h ≤ t0) :
    c.temperature h = (c.tab.T 0).val (c.z h - t0) + c.dt ∧ c.pressure h = (c.tab.P 0).val (c.z h - t0) ∧
    c.rawDensity h = (c.tab.rho 0).val (c.z h - t0) := by
  have hb : bin c.tab.alt (c.z h) = 0 := by rw [ht] at hs ⊢; exact bin_below t0 l hs _ hz
  have hd : c.dx (c.z h) = c.z h - t0 := by unfold AtmCfg.dx; rw [hb, ht]; simp
  refine ⟨?_, ?_, ?_⟩ <;> simp only [AtmCfg.temperature, AtmCfg.pressure, AtmCfg.rawDensity, hb, hd]

/-- **C45 (above the table).** Above the last point the last bin is used, measured from the last point. -/
theorem atm_values_above (l : List ℝ) (tn : ℝ) (ht : c.tab.alt = l ++ [tn]) (hs : c.tab.alt.Pairwise (· < ·)) (h : ℝ)
    (hz : tn < c.z h) :
    c.temperature h = (c.tab.T (l.length + 1)).val (c.z h - tn) + c.dt ∧
    c.pressure h = (c.tab.P (l.length + 1)).val (c.z h - tn) ∧
    c.rawDensity h = (c.tab.rho (l.length + 1)).val (c.z h - tn) := by
  have hb : bin c.tab.alt (c.z h) = l.length + 1 := by
    rw [bin_above, ht]; · simp
    intro t htm
    rw [ht] at htm hs
    rcases List.mem_append.1 htm with hm | hm
    · exact lt_trans ((List.pairwise_append.1 hs).2.2 t hm tn (by simp)) hz
    · simp at hm; subst hm; exact hz
  have hd : c.dx (c.z h) = c.z h - tn := by
    unfold AtmCfg.dx; rw [hb, ht]
    simp [List.getD_cons_succ, List.getD_eq_getElem?_getD]
  refine ⟨?_, ?_, ?_⟩ <;> simp only [AtmCfg.temperature, AtmCfg.pressure, AtmCfg.rawDensity, hb, hd]

/-- **C45 (ideal gas).** Whenever the table satisfies the gas law at an altitude, so do the outputs at the temperature
including the offset. -/
theorem atm_ideal_gas (h : ℝ) (hp : 0 < c.pressure h) (hr : 0 < c.rawDensity h)
    (hgas : c.pressure h = c.rawDensity h * c.Rair * (c.temperature h - c.dt))
    (hR : 0 < c.Rair) (hT : 0 < c.temperature h) :
    c.pressure h = c.density h * c.Rair * c.temperature h := by
  have hT0 : 0 < c.temperature h - c.dt := by
    by_contra hneg
    have : c.rawDensity h * c.Rair * (c.temperature h - c.dt) ≤ 0 :=
      mul_nonpos_of_nonneg_of_nonpos (by positivity) (not_lt.1 hneg)
    linarith
  have key : (c.rawDensity h)⁻¹ + c.Rair * c.dt * (c.pressure h)⁻¹ =
      c.Rair * c.temperature h / c.pressure h := by
    have h1 : (c.rawDensity h)⁻¹ = c.Rair * (c.temperature h - c.dt) / c.pressure h := by
      rw [eq_div_iff hp.ne']
      field_simp
      linarith
    rw [h1]; field_simp; ring
  unfold AtmCfg.density
  rw [key]
  field_simp

/-- **C45 (speed of sound).** The square of the speed of sound is `K T`. -/
theorem atm_sos_sq (h : ℝ) (hT : 0 ≤ c.K * c.temperature h) :
    0 ≤ c.sos h ∧ c.sos h ^ 2 = c.K * c.temperature h := by
  unfold AtmCfg.sos
  refine ⟨Real.rpow_nonneg hT _, ?_⟩
  rw [← Real.rpow_natCast, ← Real.rpow_mul hT]; norm_num

/-- **C45 (Sutherland).** `(T + S)² μ² = β² T³` with `μ ≥ 0`, for positive temperature. -/
theorem atm_sutherland (h : ℝ) (hT : 0 < c.temperature h) (hS : 0 ≤ c.S) (hb : 0 ≤ c.beta) :
    0 ≤ c.viscosity h ∧
    (c.temperature h + c.S) ^ 2 * c.viscosity h ^ 2 = c.beta ^ 2 * c.temperature h ^ 3 := by
  have h3 : (c.temperature h ^ (3 / 2 : ℝ)) ^ 2 = c.temperature h ^ 3 := by
    rw [← Real.rpow_natCast, ← Real.rpow_mul hT.le, ← Real.rpow_natCast]; norm_num
  have hne : c.temperature h + c.S ≠ 0 := by positivity
  unfold AtmCfg.viscosity
  refine ⟨by positivity, ?_⟩
  rw [mul_pow, mul_pow, h3]
  field_simp

/-- **C45 (geopotential altitude).** For geometric input `z` satisfies `1/z = 1/h + 1/R0`; it increases with the altitude
and stays below it and below the radius. -/
theorem atm_geopotential (hg : c.geometric = true) (hR : 0 < c.R0) (h : ℝ) (hh : 0 < h) :
    (c.z h)⁻¹ = h⁻¹ + c.R0⁻¹ ∧ 0 < c.z h ∧ c.z h < h ∧ c.z h < c.R0 := by
  have hz : c.z h = h / (c.R0 + h) * c.R0 := by simp [AtmCfg.z, hg]
  have hs : 0 < c.R0 + h := by linarith
  refine ⟨?_, ?_, ?_, ?_⟩
  · rw [hz]; field_simp
  · rw [hz]; positivity
  · rw [hz, div_mul_eq_mul_div, div_lt_iff₀ hs]; nlinarith
  · rw [hz, div_mul_eq_mul_div, div_lt_iff₀ hs]; nlinarith

/-- Order is kept. -/
theorem atm_geopotential_mono (hg : c.geometric = true) (hR : 0 < c.R0) (h h' : ℝ) (h0 : -c.R0 < h) (hlt : h < h') :
    c.z h < c.z h' := by
  have hz : ∀ x, c.z x = x / (c.R0 + x) * c.R0 := by intro x; simp [AtmCfg.z, hg]
  have h1 : 0 < c.R0 + h := by linarith
  have h2 : 0 < c.R0 + h' := by linarith
  rw [hz, hz, mul_lt_mul_iff_left₀ hR, div_lt_div_iff₀ h1 h2]
  nlinarith

/-- Geopotential input is used as it is. -/
theorem atm_geopotential_id (hg : c.geometric = false) (h : ℝ) : c.z h = h := by simp [AtmCfg.z, hg]

/-- A table with two points, gas constant 1 and offset 10 meets the gas law: at `h = 50` `P = 100`, `ρ = 1/2`, `T0 = 200`. -/
def exGas : AtmCfg :=
  { tab := { alt := [0, 100], T := fun _ => ⟨200, 0, 0, 0⟩, P := fun _ => ⟨100, 0, 0, 0⟩, rho := fun _ => ⟨1 / 2, 0, 0, 0⟩,
             dT := fun _ => ⟨0, 0, 0, 0⟩ }
    geometric := false, R0 := 1, dt := 10, Rair := 1, K := 1, S := 1, beta := 1 }

example : ({ exGas with geometric := true } : AtmCfg).z 1 = 1 / 2 ∧ 0 < exGas.R0 := by
  simp [exGas, AtmCfg.z]; norm_num

example : exGas.tab.alt[0]'(by simp [exGas]) < exGas.z 50 ∧
    exGas.pressure 50 = exGas.rawDensity 50 * exGas.Rair * (exGas.temperature 50 - exGas.dt) ∧ 0 < exGas.rawDensity 50 := by
  refine ⟨?_, ?_, ?_⟩ <;>
    simp [exGas, AtmCfg.z, AtmCfg.pressure, AtmCfg.rawDensity, AtmCfg.temperature, Cubic.val] <;> norm_num

end
end Verif
