import Verif.Model.SmallComponents
import Mathlib.Tactic.FieldSimp
import Mathlib.Tactic.Linarith
import Mathlib.Tactic.NormNum
import Mathlib.Tactic.Positivity
import Mathlib.Analysis.Calculus.Deriv.Comp
import Mathlib.Analysis.Calculus.Deriv.Prod

/-!
# Theorems about the design point, the wetted area of a blended wing body, and sums

Partials are stated along arbitrary differentiable curves of the inputs, so one statement covers every column at once.
-/

namespace Verif.SmallComponents

open Filter Topology

/-! ## Design lift coefficient -/

theorem pow_three_halves {x : ℝ} (hx : 0 < x) : x ^ (1.5 : ℝ) = x * Real.sqrt x := by
  rw [Real.sqrt_eq_rpow, show (1.5 : ℝ) = 1 + 1 / 2 by norm_num, Real.rpow_add hx, Real.rpow_one]

variable {AR CAM SW TC : ℝ → ℝ} {a c s t u : ℝ}

/-- The partials of the thick wing. -/
theorem clThick_deriv (hA : HasDerivAt AR a u) (hC : HasDerivAt CAM c u) (hS : HasDerivAt SW s u) (h0 : 0 < AR u)
    (hT : TC u > 0.065) :
    HasDerivAt (fun v => clThick (AR v) (CAM v) (SW v))
      ((clGrad (AR u) (CAM u) (SW u) (TC u)).AR * a + (clGrad (AR u) (CAM u) (SW u) (TC u)).CAM * c
        + (clGrad (AR u) (CAM u) (SW u) (TC u)).SW * s) u := by
  have hs : Real.sqrt (AR u) ≠ 0 := (Real.sqrt_pos.2 h0).ne'
  have h1 := ((hA.const_mul 0.1843).const_add 0.029)
  have h2 := (hS.div_const 57.2958).cos
  have h3 := ((hC.const_mul (1 / 10)).const_add 1)
  have h4 := hA.sqrt h0.ne'
  have h := ((h1.mul h2).mul h3).div h4 hs
  refine h.congr_deriv ?_
  simp only [clGrad, if_pos hT, pow_three_halves h0, Pi.mul_apply]
  have hq : Real.sqrt (AR u) ^ 2 = AR u := Real.sq_sqrt h0.le
  generalize hr : Real.sqrt (AR u) = r at *
  rw [← hq]
  field_simp
  ring

/-- The partials of the thin wing. -/
theorem clThin_deriv (hA : HasDerivAt AR a u) (hT : HasDerivAt TC t u) (h0 : 0 < TC u) (h1 : ¬ TC u > 0.065) (C S : ℝ) :
    HasDerivAt (fun v => clThin (AR v) (TC v))
      ((clGrad (AR u) C S (TC u)).AR * a + (clGrad (AR u) C S (TC u)).TC * t) u := by
  have hf : HasDerivAt (fun v => far (AR v) (TC v))
      (a * TC u ^ (1 / 3 : ℝ) + AR u * (t * (1 / 3) * TC u ^ (1 / 3 - 1 : ℝ))) u :=
    hA.mul (hT.rpow_const (Or.inl h0.ne'))
  have h := ((((hf.const_mul 0.530389).const_add (-0.06416))).add ((hf.pow 2).const_mul (-0.214493))).add
    ((hf.pow 3).const_mul 0.0376684)
  refine h.congr_deriv ?_
  simp only [clGrad, if_neg h1]
  push_cast
  ring

theorem clDesign_deriv (hA : HasDerivAt AR a u) (hC : HasDerivAt CAM c u) (hS : HasDerivAt SW s u)
    (hT : HasDerivAt TC t u) (hA0 : 0 < AR u) (hT0 : 0 < TC u) (hne : TC u ≠ 0.065) :
    HasDerivAt (fun v => clDesign (AR v) (CAM v) (SW v) (TC v))
      ((clGrad (AR u) (CAM u) (SW u) (TC u)).AR * a + (clGrad (AR u) (CAM u) (SW u) (TC u)).CAM * c
        + (clGrad (AR u) (CAM u) (SW u) (TC u)).SW * s + (clGrad (AR u) (CAM u) (SW u) (TC u)).TC * t) u := by
  rcases lt_or_gt_of_ne hne with h | h
  · have h' : ¬ TC u > 0.065 := not_lt.2 h.le
    have hd := clThin_deriv hA hT hT0 h' (CAM u) (SW u)
    refine (hd.congr_of_eventuallyEq ?_).congr_deriv ?_
    · filter_upwards [hT.continuousAt.eventually (gt_mem_nhds h)] with v hv
      simp only [clDesign, if_neg (not_lt.2 (le_of_lt hv))]
    · simp [clGrad, if_neg h']
  · have hd := clThick_deriv (TC := TC) hA hC hS hA0 h
    refine (hd.congr_of_eventuallyEq ?_).congr_deriv ?_
    · filter_upwards [hT.continuousAt.eventually (lt_mem_nhds h)] with v hv
      simp only [clDesign, if_pos hv]
    · simp [clGrad, if_pos h]

/-- Non-vacuity: a curve on which every input moves. -/
example : ∃ AR CAM SW TC : ℝ → ℝ, HasDerivAt AR 1 0 ∧ HasDerivAt CAM 1 0 ∧ HasDerivAt SW 1 0 ∧ HasDerivAt TC 1 0 ∧
    0 < AR 0 ∧ 0 < TC 0 ∧ TC 0 ≠ 0.065 :=
  ⟨fun v => 10 + v, fun v => 2 + v, fun v => 25 + v, fun v => 0.11 + v, (hasDerivAt_id' 0).const_add 10,
    (hasDerivAt_id' 0).const_add 2, (hasDerivAt_id' 0).const_add 25, (hasDerivAt_id' 0).const_add 0.11, by norm_num,
    by norm_num, by norm_num⟩

/-! ## Design Mach number -/

/-- A table whose derivative is the one given. -/
def IsTable (F : ℝ → ℝ → ℝ) (D : ℝ → ℝ → ℝ × ℝ) (x y : ℝ) : Prop :=
  HasFDerivAt (fun p : ℝ × ℝ => F p.1 p.2)
    ((D x y).1 • ContinuousLinearMap.fst ℝ ℝ ℝ + (D x y).2 • ContinuousLinearMap.snd ℝ ℝ ℝ) (x, y)

theorem table_curve {F : ℝ → ℝ → ℝ} {D : ℝ → ℝ → ℝ × ℝ} {f g : ℝ → ℝ} {f' g' u : ℝ} (hF : IsTable F D (f u) (g u))
    (hf : HasDerivAt f f' u) (hg : HasDerivAt g g' u) :
    HasDerivAt (fun v => F (f v) (g v)) ((D (f u) (g u)).1 * f' + (D (f u) (g u)).2 * g') u := by
  have h := HasFDerivAt.comp_hasDerivAt u (f := fun v => (f v, g v)) hF (hf.prodMk hg)
  refine (h.congr_deriv ?_)
  simp [smul_eq_mul]

/-- The branch of subsonic tables. -/
theorem mach_subsonic_deriv (T : Tables) (tek vmax : ℝ) (hA : HasDerivAt AR a u) (hC : HasDerivAt CAM c u)
    (hS : HasDerivAt SW s u) (hT : HasDerivAt TC t u) (hA0 : 0 < AR u) (hT0 : 0 < TC u) (hne : TC u ≠ 0.065)
    (hb : TC u > 0.065 ∨ vmax < 1)
    (h1 : IsTable T.cm T.dcm (clDesign (AR u) (CAM u) (SW u) (TC u)) (TC u ^ (2 / 3 : ℝ)))
    (h2 : IsTable T.am T.dam (clDesign (AR u) (CAM u) (SW u) (TC u)) (TC u ^ (2 / 3 : ℝ)))
    (hp : ans T tek (clDesign (AR u) (CAM u) (SW u) (TC u)) (TC u ^ (2 / 3 : ℝ)) + 1 ≠ 0) :
    HasDerivAt (fun v => machDesign T tek vmax (AR v) (CAM v) (SW v) (TC v))
      ((machGrad T tek vmax (AR u) (CAM u) (SW u) (TC u)).AR * a
        + (machGrad T tek vmax (AR u) (CAM u) (SW u) (TC u)).CAM * c
        + (machGrad T tek vmax (AR u) (CAM u) (SW u) (TC u)).SW * s
        + (machGrad T tek vmax (AR u) (CAM u) (SW u) (TC u)).TC * t) u := by
  have hcl := clDesign_deriv hA hC hS hT hA0 hT0 hne
  have ht : HasDerivAt (fun v => TC v ^ (2 / 3 : ℝ)) (t * (2 / 3) * TC u ^ (2 / 3 - 1 : ℝ)) u :=
    hT.rpow_const (Or.inl hT0.ne')
  have k1 := (table_curve (f := fun v => clDesign (AR v) (CAM v) (SW v) (TC v)) (g := fun v => TC v ^ (2 / 3 : ℝ)) h1
    hcl ht).mul_const (2 - tek)
  have k2 := (table_curve (f := fun v => clDesign (AR v) (CAM v) (SW v) (TC v)) (g := fun v => TC v ^ (2 / 3 : ℝ)) h2
    hcl ht).mul_const (tek - 1)
  have hd := (((k1.add k2).add_const (1 : ℝ)).sqrt hp).add ((((hS.div_const 57.2958).cos).const_sub 1).const_mul 0.32)
  have hd := hd.add ((hasDerivAt_const u (0.144 : ℝ)).div hA hA0.ne')
  refine (hd.congr_of_eventuallyEq ?_).congr_deriv ?_
  · have hev : ∀ᶠ v in 𝓝 u, TC v > 0.065 ∨ vmax < 1 := by
      rcases hb with h | h
      · filter_upwards [hT.continuousAt.eventually (lt_mem_nhds h)] with v hv using Or.inl hv
      · exact Eventually.of_forall fun _ => Or.inr h
    filter_upwards [hev] with v hv
    simp [machDesign, mach2d, if_pos hv, ans]
  · rw [show (2 / 3 - 1 : ℝ) = -1 / 3 by norm_num]
    simp only [machGrad, mach2dGrad, if_pos hb]
    have e : (T.cm (clDesign (AR u) (CAM u) (SW u) (TC u)) (TC u ^ (2 / 3 : ℝ)) * (2 - tek) +
      T.am (clDesign (AR u) (CAM u) (SW u) (TC u)) (TC u ^ (2 / 3 : ℝ)) * (tek - 1) + 1) =
      ans T tek (clDesign (AR u) (CAM u) (SW u) (TC u)) (TC u ^ (2 / 3 : ℝ)) + 1 := rfl
    simp only [Pi.add_apply, e]
    generalize Real.sqrt (ans T tek (clDesign (AR u) (CAM u) (SW u) (TC u)) (TC u ^ (2 / 3 : ℝ)) + 1) = q
    generalize clGrad (AR u) (CAM u) (SW u) (TC u) = g
    simp only [div_eq_mul_inv, mul_inv]
    norm_num
    ring

/-- The branch of the supersonic table. -/
theorem mach_supersonic_deriv (T : Tables) (tek vmax : ℝ) (hA : HasDerivAt AR a u) (hC : HasDerivAt CAM c u)
    (hS : HasDerivAt SW s u) (hT : HasDerivAt TC t u) (hA0 : 0 < AR u) (hT0 : 0 < TC u) (hlt : TC u < 0.065)
    (hv : ¬ vmax < 1) (h1 : IsTable T.hs T.dhs (clDesign (AR u) (CAM u) (SW u) (TC u)) (TC u)) :
    HasDerivAt (fun v => machDesign T tek vmax (AR v) (CAM v) (SW v) (TC v))
      ((machGrad T tek vmax (AR u) (CAM u) (SW u) (TC u)).AR * a
        + (machGrad T tek vmax (AR u) (CAM u) (SW u) (TC u)).CAM * c
        + (machGrad T tek vmax (AR u) (CAM u) (SW u) (TC u)).SW * s
        + (machGrad T tek vmax (AR u) (CAM u) (SW u) (TC u)).TC * t) u := by
  have hcl := clDesign_deriv hA hC hS hT hA0 hT0 hlt.ne
  have hb : ¬ (TC u > 0.065 ∨ vmax < 1) := by rintro (h | h); exacts [absurd h (not_lt.2 hlt.le), hv h]
  have k1 := table_curve (f := fun v => clDesign (AR v) (CAM v) (SW v) (TC v)) (g := TC) h1 hcl hT
  have hd := k1.add ((((hS.div_const 57.2958).cos).const_sub 1).const_mul 0.32)
  have hd := hd.add ((hasDerivAt_const u (0.144 : ℝ)).div hA hA0.ne')
  refine (hd.congr_of_eventuallyEq ?_).congr_deriv ?_
  · filter_upwards [hT.continuousAt.eventually (gt_mem_nhds hlt)] with v hv'
    have : ¬ (TC v > 0.065 ∨ vmax < 1) := by rintro (h | h); exacts [absurd h (not_lt.2 (le_of_lt hv')), hv h]
    simp [machDesign, mach2d, if_neg this]
  · simp only [machGrad, mach2dGrad, if_neg hb]
    generalize clGrad (AR u) (CAM u) (SW u) (TC u) = g
    simp only [div_eq_mul_inv]
    norm_num
    ring

/-- Non-vacuity: a plane is a table, and makes the root positive. -/
example : IsTable (fun x y => 2 * x + 3 * y) (fun _ _ => (2, 3)) 0.5 0.2 := by
  have h := ((hasFDerivAt_fst (𝕜 := ℝ) (p := ((0.5 : ℝ), (0.2 : ℝ)))).const_mul (2 : ℝ)).add
    ((hasFDerivAt_snd (𝕜 := ℝ) (p := ((0.5 : ℝ), (0.2 : ℝ)))).const_mul (3 : ℝ))
  exact h

/-- The two technologies are the two tables. -/
theorem ans_technology (T : Tables) (CL x : ℝ) : ans T 1 CL x = T.cm CL x ∧ ans T 2 CL x = T.am CL x := by
  constructor <;> simp only [ans] <;> ring

/-- Sweep and slenderness only add: the design Mach number is never below the one of the section. -/
theorem mach_ge_section (T : Tables) (tek vmax AR CAM SW TC : ℝ) (h : 0 < AR) :
    mach2d T tek vmax AR CAM SW TC < machDesign T tek vmax AR CAM SW TC := by
  have h1 := Real.cos_le_one (SW / 57.2958)
  have h2 : 0 < 0.144 / AR := by positivity
  unfold machDesign
  nlinarith

/-- The design lift coefficient jumps where the wing stops being thick. -/
theorem clDesign_jump (TC : ℝ) :
    (0.065 < TC → clDesign 10 0 0 TC < 0.6) ∧ (0.064 ≤ TC → TC ≤ 0.065 → 0.8 < clDesign 10 0 0 TC) := by
  constructor
  · intro h
    have hs : (3.13 : ℝ) < Real.sqrt 10 := by
      rw [Real.lt_sqrt (by norm_num)]; norm_num
    simp only [clDesign, if_pos h, clThick]
    rw [div_lt_iff₀ (by linarith)]
    norm_num
    linarith
  · intro h1 h2
    simp only [clDesign, if_neg (not_lt.2 h2)]
    have h0 : (0 : ℝ) ≤ TC := by linarith
    have e : (TC ^ (1 / 3 : ℝ)) ^ 3 = TC := by
      rw [← Real.rpow_natCast, ← Real.rpow_mul h0]; norm_num
    have hp : 0 ≤ TC ^ (1 / 3 : ℝ) := Real.rpow_nonneg h0 _
    have lo : 0.4 ≤ TC ^ (1 / 3 : ℝ) := by
      by_contra hc
      have := pow_lt_pow_left₀ (not_le.1 hc) hp (by norm_num : 3 ≠ 0)
      rw [e] at this; norm_num at this; linarith
    have hi : TC ^ (1 / 3 : ℝ) ≤ 0.41 := by
      by_contra hc
      have := pow_lt_pow_left₀ (not_le.1 hc) (by norm_num) (by norm_num : 3 ≠ 0)
      rw [e] at this; norm_num at this; linarith
    simp only [clThin, far]
    generalize TC ^ (1 / 3 : ℝ) = x at *
    have q1 : x ^ 2 ≤ 0.41 ^ 2 := pow_le_pow_left₀ hp hi 2
    have q2 : 0.4 ^ 3 ≤ x ^ 3 := pow_le_pow_left₀ (by norm_num) lo 3
    have e2 : (10 * x) ^ 2 = 100 * x ^ 2 := by ring
    have e3 : (10 * x) ^ 3 = 1000 * x ^ 3 := by ring
    rw [e2, e3]
    norm_num at q1 q2 ⊢
    linarith

/-! ## Wetted area of a blended wing body -/

/-- Area of both sides of the planform between sections: the specification of the planform. -/
noncomputable def planform : Sect → List Sect → ℝ
  | _, [] => 0
  | s, t :: rest => (t.y - s.y) * (s.c + t.c) + planform t rest

theorem wetLoop_acc (acc : ℝ) (s : Sect) (l : List Sect) : wetLoop acc s l = acc + wetLoop 0 s l := by
  induction l generalizing acc s with
  | nil => simp [wetLoop]
  | cons t rest ih => rw [wetLoop, wetLoop, ih, ih (0 + _)]; ring

/-- Stations that do not go inward, chords that are not negative. -/
def Outward : Sect → List Sect → Prop
  | s, [] => 0 ≤ s.c
  | s, t :: rest => 0 ≤ s.c ∧ s.y ≤ t.y ∧ Outward t rest

theorem Outward.chord : ∀ {s : Sect} {l : List Sect}, Outward s l → 0 ≤ s.c
  | _, [], h => h
  | _, _ :: _, h => h.1

/-- The wetted area is between the factors of the thinnest and the thickest section times the planform. -/
theorem wet_bounds (lo hi : ℝ) (s : Sect) (l : List Sect) (ho : Outward s l) (hl : ∀ x ∈ s :: l, lo ≤ x.tc ∧ x.tc ≤ hi) :
    (2 + 0.387 * lo) * planform s l ≤ wetLoop 0 s l ∧ wetLoop 0 s l ≤ (2 + 0.387 * hi) * planform s l := by
  induction l generalizing s with
  | nil => simp [planform, wetLoop]
  | cons t rest ih =>
    obtain ⟨h1, h2⟩ := ih t ho.2.2 (fun x hx => hl x (List.mem_cons_of_mem _ hx))
    have hs := hl s (by simp)
    have ht := hl t (by simp)
    have hc : 0 ≤ (t.y - s.y) * (s.c + t.c) :=
      mul_nonneg (sub_nonneg.2 ho.2.1) (add_nonneg ho.1 ho.2.2.chord)
    rw [planform, wetLoop, wetLoop_acc]
    generalize (t.y - s.y) * (s.c + t.c) = A at *
    have m1 : A * (2 + 0.387 * lo) ≤ A * (2 + 0.387 * ((s.tc + t.tc) / 2)) :=
      mul_le_mul_of_nonneg_left (by linarith) hc
    have m2 : A * (2 + 0.387 * ((s.tc + t.tc) / 2)) ≤ A * (2 + 0.387 * hi) :=
      mul_le_mul_of_nonneg_left (by linarith) hc
    constructor <;> nlinarith

/-- A wing of constant thickness: exactly the factor times the planform. -/
theorem wet_constant (tc : ℝ) (s : Sect) (l : List Sect) (h : ∀ x ∈ s :: l, x.tc = tc) :
    wetLoop 0 s l = (2 + 0.387 * tc) * planform s l := by
  induction l generalizing s with
  | nil => simp [planform, wetLoop]
  | cons t rest ih =>
    rw [planform, wetLoop, wetLoop_acc, ih t (fun x hx => h x (List.mem_cons_of_mem _ hx)), h s (by simp), h t (by simp)]
    ring

/-- A station split in two by interpolation does not change the planform. -/
theorem planform_split (s t : Sect) (l : List Sect) (r tc : ℝ) :
    planform s (⟨s.y + r * (t.y - s.y), s.c + r * (t.c - s.c), tc⟩ :: t :: l) = planform s (t :: l) := by
  simp only [planform]; ring

/-- Fractions are spread over the part of the semispan outside the fuselage, in feet. -/
theorem station_feet (width span x : ℝ) (hs : 0 < span) (hx : x ≤ 1) (hw : width ≤ span) (h0 : 0 ≤ x) :
    stationFt span (station width span x) = width / 2 + x * (span - width) / 2 ∧
      width / 2 ≤ stationFt span (station width span x) ∧ stationFt span (station width span x) ≤ span / 2 := by
  have hy : station width span x ≤ 1.1 := by
    rw [station, if_pos hx, mul_div_assoc', ← add_div, div_le_iff₀ hs]
    nlinarith
  have e : stationFt span (station width span x) = width / 2 + x * (span - width) / 2 := by
    rw [stationFt, if_pos hy, station, if_pos hx]
    field_simp
    ring
  have := mul_nonneg h0 (sub_nonneg.2 hw)
  have := mul_le_mul_of_nonneg_right hx (sub_nonneg.2 hw)
  refine ⟨e, ?_, ?_⟩ <;> rw [e] <;> linarith

example : stationFt 200 (station 80 200 1) = 100 := by norm_num [stationFt, station]

/-- With the centre line added, the first given station has no effect: it is replaced by the side of the fuselage. -/
theorem first_station_ignored (width span x x' : ℝ) (xs : List ℝ) :
    stations true width span (x :: xs) = stations true width span (x' :: xs) := rfl

/-- The side of the fuselage is at half of the width, when that is more than 1.1 ft. -/
theorem side_feet (width span : ℝ) (h : 2.2 < width) : stationFt span (width / 2) = width / 2 := by
  rw [stationFt, if_neg (not_le.2 (by linarith))]

/-- Fuselages up to 2.2 ft wide are read as fractions: the side of the fuselage is put further out by half of the span. -/
theorem side_feet_violated : stationFt 10 (2 / 2) = 5 := by norm_num [stationFt]

/-- Chords just above and just below five differ by the scale of the semispan. -/
theorem chord_jump (span c : ℝ) (hs : 4 ≤ span) (h : 5 < c) (h' : c ≤ 6) : chordFt span c < chordFt span 5 := by
  rw [chordFt, chordFt, if_neg (not_le.2 h), if_pos le_rfl]; linarith

/-- Errors: exactly spans that are not positive, and missing entries. -/
theorem bwbWetted_value (auto : Bool) (width span : ℝ) (xs cs tcs : List ℝ) :
    bwbWetted auto width span xs cs tcs = .error .value ↔ span ≤ 0 := by
  unfold bwbWetted
  constructor
  · intro h
    by_contra hs
    rw [if_neg hs] at h
    dsimp only at h
    split at h
    · cases h
    · split at h <;> cases h
  · intro h; rw [if_pos h]

/-- With positive span and one chord and thickness for each station there is an area. -/
theorem bwbWetted_ok (auto : Bool) (width span : ℝ) (xs cs tcs : List ℝ) (hs : 0 < span) (hx : xs ≠ [])
    (hc : cs.length = (stations auto width span xs).length) (ht : tcs.length = (stations auto width span xs).length) :
    ∃ s l, bwbWetted auto width span xs cs tcs = .ok (wetLoop 0 s l) ∧
      s :: l = List.zipWith (fun y ct => Sect.mk (stationFt span y) (chordFt span ct.1) ct.2)
        (stations auto width span xs) (List.zip cs tcs) := by
  have hlen : (List.zipWith (fun y ct => Sect.mk (stationFt span y) (chordFt span ct.1) ct.2)
      (stations auto width span xs) (List.zip cs tcs)).length ≠ 0 := by
    have : 0 < (stations auto width span xs).length := by
      cases xs with
      | nil => exact absurd rfl hx
      | cons x xs => cases auto <;> simp [stations]
    simp only [List.length_zipWith, List.length_zip, hc, ht]
    omega
  unfold bwbWetted
  rw [if_neg (not_le.2 hs)]
  dsimp only
  rw [if_neg (by rw [hc, ht]; simp [hx])]
  match hz : List.zipWith (fun y ct => Sect.mk (stationFt span y) (chordFt span ct.1) ct.2)
      (stations auto width span xs) (List.zip cs tcs) with
  | [] => exact absurd (by rw [hz]; rfl) hlen
  | s :: l => exact ⟨s, l, by rw [hz], hz.symm⟩

/-- Non-vacuity: a body 80 ft wide, 200 ft of span. -/
example : bwbWetted true 80 200 [0, 1] [1, 0.6, 0.1] [0.1, 0.1, 0.1] =
    .ok ((2 + 0.387 * 0.1) * (40 * 160 + 60 * 70)) := by
  have h : ([0, 1] : List ℝ) ≠ [] := List.cons_ne_nil _ _
  norm_num [h, bwbWetted, stations, station, stationFt, chordFt, wetLoop, List.zipWith]

/-! ## Sums -/

theorem cable_deriv {n : ℕ} {loc : ℝ → Fin n → ℝ} {loc' : Fin n → ℝ} {span diam : ℝ → ℝ} {s d u : ℝ}
    (hl : ∀ i, HasDerivAt (fun v => loc v i) (loc' i) u) (hs : HasDerivAt span s u) (hd : HasDerivAt diam d u) :
    HasDerivAt (fun v => cable (loc v) (span v) (diam v))
      ((∑ i, (cableGrad (loc u) (span u)).1 i * loc' i) + (cableGrad (loc u) (span u)).2.1 * s
        + (cableGrad (loc u) (span u)).2.2 * d) u := by
  have h := ((HasDerivAt.fun_sum (u := Finset.univ) fun i _ => hl i).mul hs).add (hd.const_mul 2)
  refine h.congr_deriv ?_
  simp only [cableGrad, ← Finset.mul_sum]
  ring

/-- The mass of the auxiliary power unit is positive for any number of passengers over 35 up to 34000, otherwise zero. -/
theorem apuMass_pos (pax : ℝ) (h : 35 < pax) (h' : pax ≤ 34000) : 0 < apuMass pax := by
  have hp : 0 < pax := by linarith
  have h1 : pax ^ (0.056 : ℝ) ≤ 1.92 := by
    calc pax ^ (0.056 : ℝ) ≤ pax ^ (1 / 16 : ℝ) := Real.rpow_le_rpow_of_exponent_le (by linarith) (by norm_num)
      _ ≤ ((1.92 : ℝ) ^ (16 : ℕ)) ^ (1 / 16 : ℝ) := Real.rpow_le_rpow hp.le (by norm_num; linarith) (by norm_num)
      _ = 1.92 := by rw [← Real.rpow_natCast, ← Real.rpow_mul (by norm_num)]; norm_num
  have e : pax = pax ^ (0.944 : ℝ) * pax ^ (0.056 : ℝ) := by
    rw [← Real.rpow_add hp]; norm_num
  have hq : 0 < pax ^ (0.944 : ℝ) := Real.rpow_pos_of_pos hp _
  rw [apuMass, if_pos h, div_one]
  have := mul_le_mul_of_nonneg_left h1 hq.le
  rw [← e] at this
  linarith

theorem apuMass_zero (pax : ℝ) (h : pax ≤ 35) : apuMass pax = 0 := by rw [apuMass, if_neg (not_lt.2 h)]

/-- The declared partials of the sums: ones; of the furnishings: one and three hundredths; of the nose gear: 0.7. -/
theorem sums_deriv {f g h k l m : ℝ → ℝ} {f' g' h' k' l' m' u : ℝ} (hf : HasDerivAt f f' u) (hg : HasDerivAt g g' u)
    (hh : HasDerivAt h h' u) (hk : HasDerivAt k k' u) (hl : HasDerivAt l l' u) (hm : HasDerivAt m m' u) :
    HasDerivAt (fun v => totalWetted (f v) (g v) (h v) (k v) (l v) (m v))
        (1 * f' + 1 * g' + 1 * h' + 1 * k' + 1 * l' + 1 * m') u ∧
      HasDerivAt (fun v => controlMass (f v) (g v) (h v) (k v)) (1 * f' + 1 * g' + 1 * h' + 1 * k') u ∧
      HasDerivAt (fun v => altFurnishings (f v) (g v) (h v) (k v)) (1 * f' + 0.01 * g' + 0.01 * h' + 0.01 * k') u ∧
      HasDerivAt (fun v => gearTotal (f v) (g v)) (1 * f' + 1 * g') u ∧
      HasDerivAt (fun v => landingAltitude (f v) (g v)) (1 * f' + 1 * g') u ∧
      HasDerivAt (fun v => noseGear (f v)) (0.7 * f') u := by
  refine ⟨?_, ?_, ?_, ?_, ?_, ?_⟩
  · exact (((((hf.add hg).add hh).add hk).add hl).add hm).congr_deriv (by ring)
  · exact (((((hg.mul_const 1).add (hk.mul_const 1)).add (hh.mul_const 1)).add (hf.mul_const 1)).div_const 1).congr_deriv
      (by ring)
  · exact (hf.add (((hg.add hh).add hk).const_mul 0.01)).congr_deriv (by ring)
  · exact (hf.add hg).congr_deriv (by ring)
  · exact (hg.add hf).congr_deriv (by ring)
  · exact hf.const_mul 0.7

theorem massToWeight_deriv {n : ℕ} {mass : ℝ → Fin n → ℝ} {m' : Fin n → ℝ} {u : ℝ}
    (h : ∀ i, HasDerivAt (fun v => mass v i) (m' i) u) (i : Fin n) :
    HasDerivAt (fun v => massToWeight (mass v) i) (∑ j, massToWeightGrad n i j * m' j) u := by
  refine ((h i).mul_const 1).congr_deriv ?_
  simp [massToWeightGrad]

end Verif.SmallComponents
