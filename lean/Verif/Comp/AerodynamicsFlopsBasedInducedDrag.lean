import Verif.Lemmas.CompDeriv

/-! # Partial derivatives of the components of `aviary/subsystems/aerodynamics/flops_based/induced_drag.py`

One node of a vector component is modelled over the real numbers.  Each option that selects a
branch is fixed, one namespace per choice.  `out_x` is the output `x`, `J_x__y` the entry that
`compute_partials` (or `declare_partials` with `val`) assigns, `d_x__y` the proof that the entry is
the derivative.  Inputs an output does not take as argument have no influence on it.

* `InducedDrag_wingspanefficiencyreduction`: not proved: `induced_drag_coeff` by
  `atmosphere_mach`, `induced_drag_coeff` by `wing_aspect_ratio`, `induced_drag_coeff` by
  `wing_span_efficiency_factor`, `induced_drag_coeff` by `wing_sweep`, `induced_drag_coeff` by
  `wing_taper_ratio`

* `InducedDrag_no_wingspanefficiencyreduction`: not proved: `induced_drag_coeff` by
  `atmosphere_mach`, `induced_drag_coeff` by `wing_aspect_ratio`, `induced_drag_coeff` by
  `wing_sweep`, `induced_drag_coeff` by `wing_taper_ratio` -/

set_option linter.all false

namespace Verif.Comp.AerodynamicsFlopsBasedInducedDrag.InducedDrag_wingspanefficiencyreduction
open Real

/-- aviary/subsystems/aerodynamics/flops_based/induced_drag.py:70 -/
noncomputable abbrev cl (gamma atmosphere_mach vehicle_lift atmosphere_static_pressure wing_area : ℝ) : ℝ :=
  (2 * vehicle_lift) / (((wing_area * gamma) * atmosphere_static_pressure) * (atmosphere_mach ^
    2))

/-- aviary/subsystems/aerodynamics/flops_based/induced_drag.py:81 -/
noncomputable abbrev span_efficiency_0 (wing_aspect_ratio wing_taper_ratio : ℝ) : ℝ :=
  1 + (((1 / 10) * wing_aspect_ratio) * ((((2113 / 5000) * (sqrt wing_aspect_ratio)) - ((7 / 20)
    * wing_taper_ratio)) - (143 / 1000)))

/-- aviary/subsystems/aerodynamics/flops_based/induced_drag.py:86 -/
noncomputable abbrev span_efficiency (wing_aspect_ratio wing_span_efficiency_factor wing_taper_ratio : ℝ) : ℝ :=
  (span_efficiency_0 wing_aspect_ratio wing_taper_ratio) + wing_span_efficiency_factor

/-- aviary/subsystems/aerodynamics/flops_based/induced_drag.py:88 -/
noncomputable abbrev span_efficiency_2 (wing_aspect_ratio wing_span_efficiency_factor wing_taper_ratio : ℝ) : ℝ :=
  (span_efficiency_0 wing_aspect_ratio wing_taper_ratio) * wing_span_efficiency_factor

/-- aviary/subsystems/aerodynamics/flops_based/induced_drag.py:85 -/
noncomputable abbrev span_efficiency_3 (wing_aspect_ratio wing_span_efficiency_factor wing_taper_ratio : ℝ) : ℝ :=
  if wing_span_efficiency_factor ≤ (3 / 10) then (span_efficiency wing_aspect_ratio
    wing_span_efficiency_factor wing_taper_ratio) else (span_efficiency_2 wing_aspect_ratio
    wing_span_efficiency_factor wing_taper_ratio)

/-- aviary/subsystems/aerodynamics/flops_based/induced_drag.py:90 -/
noncomputable abbrev cdi (gamma atmosphere_mach vehicle_lift atmosphere_static_pressure wing_area wing_aspect_ratio wing_span_efficiency_factor wing_taper_ratio : ℝ) : ℝ :=
  ((cl gamma atmosphere_mach vehicle_lift atmosphere_static_pressure wing_area) ^ 2) / ((π *
    wing_aspect_ratio) * (span_efficiency_3 wing_aspect_ratio wing_span_efficiency_factor
    wing_taper_ratio))

/-- aviary/subsystems/aerodynamics/flops_based/induced_drag.py:94 -/
noncomputable abbrev deg_to_rad : ℝ := π / 180

/-- aviary/subsystems/aerodynamics/flops_based/induced_drag.py:96 -/
noncomputable abbrev th (wing_aspect_ratio wing_taper_ratio : ℝ) : ℝ :=
  ((1 - wing_taper_ratio) / (1 + wing_taper_ratio)) / wing_aspect_ratio

/-- aviary/subsystems/aerodynamics/flops_based/induced_drag.py:97 -/
noncomputable abbrev tan_sw (wing_sweep : ℝ) : ℝ := tan (wing_sweep / deg_to_rad)

/-- aviary/subsystems/aerodynamics/flops_based/induced_drag.py:98 -/
noncomputable abbrev cosa (wing_aspect_ratio wing_sweep wing_taper_ratio : ℝ) : ℝ :=
  1 / (sqrt (1 + (((tan_sw wing_sweep) - (3 * (th wing_aspect_ratio wing_taper_ratio))) ^ 2)))

/-- aviary/subsystems/aerodynamics/flops_based/induced_drag.py:99 -/
noncomputable abbrev cosb (wing_aspect_ratio wing_sweep wing_taper_ratio : ℝ) : ℝ :=
  1 / (sqrt (1 + (((tan_sw wing_sweep) + (th wing_aspect_ratio wing_taper_ratio)) ^ 2)))

/-- aviary/subsystems/aerodynamics/flops_based/induced_drag.py:100 -/
noncomputable abbrev cayt (atmosphere_mach wing_aspect_ratio wing_sweep wing_taper_ratio : ℝ) : ℝ :=
  (1 / 2) * (((((11 / 10) - ((11 / 100) / ((11 / 10) - (atmosphere_mach * (cosa
    wing_aspect_ratio wing_sweep wing_taper_ratio))))) / ((11 / 10) - ((11 / 100) / ((11 / 10) -
    (atmosphere_mach * (cosb wing_aspect_ratio wing_sweep wing_taper_ratio)))))) - 1) ^ 2)

/-- aviary/subsystems/aerodynamics/flops_based/induced_drag.py:106 -/
noncomputable abbrev cdi_2 (gamma atmosphere_mach vehicle_lift atmosphere_static_pressure wing_area wing_aspect_ratio wing_span_efficiency_factor wing_sweep wing_taper_ratio : ℝ) : ℝ :=
  (cdi gamma atmosphere_mach vehicle_lift atmosphere_static_pressure wing_area wing_aspect_ratio
    wing_span_efficiency_factor wing_taper_ratio) + ((cayt atmosphere_mach wing_aspect_ratio
    wing_sweep wing_taper_ratio) * ((cl gamma atmosphere_mach vehicle_lift
    atmosphere_static_pressure wing_area) ^ 2))

/-- aviary/subsystems/aerodynamics/flops_based/induced_drag.py:93 -/
noncomputable abbrev cdi_3 (gamma atmosphere_mach vehicle_lift atmosphere_static_pressure wing_area wing_aspect_ratio wing_span_efficiency_factor wing_sweep wing_taper_ratio : ℝ) : ℝ :=
  if wing_sweep < 0 then (cdi_2 gamma atmosphere_mach vehicle_lift atmosphere_static_pressure
    wing_area wing_aspect_ratio wing_span_efficiency_factor wing_sweep wing_taper_ratio) else
    (cdi gamma atmosphere_mach vehicle_lift atmosphere_static_pressure wing_area
    wing_aspect_ratio wing_span_efficiency_factor wing_taper_ratio)

/-- aviary/subsystems/aerodynamics/flops_based/induced_drag.py:117 -/
noncomputable abbrev sqrt_ar (wing_aspect_ratio : ℝ) : ℝ := sqrt wing_aspect_ratio

/-- aviary/subsystems/aerodynamics/flops_based/induced_drag.py:118 -/
noncomputable abbrev span_efficiency_0_2 (wing_aspect_ratio wing_taper_ratio : ℝ) : ℝ :=
  1 + (((1 / 10) * wing_aspect_ratio) * ((((2113 / 5000) * (sqrt_ar wing_aspect_ratio)) - ((7 /
    20) * wing_taper_ratio)) - (143 / 1000)))

/-- aviary/subsystems/aerodynamics/flops_based/induced_drag.py:119 -/
noncomputable abbrev dse0_dar (wing_aspect_ratio wing_taper_ratio : ℝ) : ℝ :=
  (1 / 10) * ((((2113 / 5000) * ((sqrt_ar wing_aspect_ratio) + (((1 / 2) * wing_aspect_ratio) /
    (sqrt_ar wing_aspect_ratio)))) - ((7 / 20) * wing_taper_ratio)) - (143 / 1000))

/-- aviary/subsystems/aerodynamics/flops_based/induced_drag.py:120 -/
noncomputable abbrev dse0_dtr (wing_aspect_ratio : ℝ) : ℝ := (-(7 / 200)) * wing_aspect_ratio

/-- aviary/subsystems/aerodynamics/flops_based/induced_drag.py:126 -/
noncomputable abbrev span_efficiency_4 (wing_aspect_ratio wing_span_efficiency_factor wing_taper_ratio : ℝ) : ℝ :=
  (span_efficiency_0_2 wing_aspect_ratio wing_taper_ratio) + wing_span_efficiency_factor

/-- aviary/subsystems/aerodynamics/flops_based/induced_drag.py:128 -/
noncomputable abbrev span_efficiency_5 (wing_aspect_ratio wing_span_efficiency_factor wing_taper_ratio : ℝ) : ℝ :=
  (span_efficiency_0_2 wing_aspect_ratio wing_taper_ratio) * wing_span_efficiency_factor

/-- aviary/subsystems/aerodynamics/flops_based/induced_drag.py:125 -/
noncomputable abbrev span_efficiency_6 (wing_aspect_ratio wing_span_efficiency_factor wing_taper_ratio : ℝ) : ℝ :=
  if wing_span_efficiency_factor ≤ (3 / 10) then (span_efficiency_4 wing_aspect_ratio
    wing_span_efficiency_factor wing_taper_ratio) else (span_efficiency_5 wing_aspect_ratio
    wing_span_efficiency_factor wing_taper_ratio)

/-- aviary/subsystems/aerodynamics/flops_based/induced_drag.py:131 -/
noncomputable abbrev dcl_dl (gamma atmosphere_mach atmosphere_static_pressure wing_area : ℝ) : ℝ :=
  2 / (((wing_area * gamma) * atmosphere_static_pressure) * (atmosphere_mach ^ 2))

/-- aviary/subsystems/aerodynamics/flops_based/induced_drag.py:132 -/
noncomputable abbrev dcl_dsref (gamma atmosphere_mach vehicle_lift atmosphere_static_pressure wing_area : ℝ) : ℝ :=
  ((-2) * vehicle_lift) / ((((wing_area ^ 2) * gamma) * atmosphere_static_pressure) *
    (atmosphere_mach ^ 2))

/-- aviary/subsystems/aerodynamics/flops_based/induced_drag.py:133 -/
noncomputable abbrev dcl_dp (gamma atmosphere_mach vehicle_lift atmosphere_static_pressure wing_area : ℝ) : ℝ :=
  ((-2) * vehicle_lift) / (((wing_area * gamma) * (atmosphere_static_pressure ^ 2)) *
    (atmosphere_mach ^ 2))

/-- aviary/subsystems/aerodynamics/flops_based/induced_drag.py:134 -/
noncomputable abbrev dcl_dmach (gamma atmosphere_mach vehicle_lift atmosphere_static_pressure wing_area : ℝ) : ℝ :=
  ((-4) * vehicle_lift) / (((wing_area * gamma) * atmosphere_static_pressure) * (atmosphere_mach
    ^ 3))

/-- aviary/subsystems/aerodynamics/flops_based/induced_drag.py:136 -/
noncomputable abbrev dcdi_dcl (gamma atmosphere_mach vehicle_lift atmosphere_static_pressure wing_area wing_aspect_ratio wing_span_efficiency_factor wing_taper_ratio : ℝ) : ℝ :=
  (2 * (cl gamma atmosphere_mach vehicle_lift atmosphere_static_pressure wing_area)) / ((π *
    wing_aspect_ratio) * (span_efficiency_6 wing_aspect_ratio wing_span_efficiency_factor
    wing_taper_ratio))

/-- aviary/subsystems/aerodynamics/flops_based/induced_drag.py:137 -/
noncomputable abbrev dcdi_dar (gamma atmosphere_mach vehicle_lift atmosphere_static_pressure wing_area wing_aspect_ratio wing_span_efficiency_factor wing_taper_ratio : ℝ) : ℝ :=
  (-((cl gamma atmosphere_mach vehicle_lift atmosphere_static_pressure wing_area) ^ 2)) / ((π *
    (wing_aspect_ratio ^ 2)) * (span_efficiency_6 wing_aspect_ratio wing_span_efficiency_factor
    wing_taper_ratio))

/-- aviary/subsystems/aerodynamics/flops_based/induced_drag.py:138 -/
noncomputable abbrev dcdi_dspan (gamma atmosphere_mach vehicle_lift atmosphere_static_pressure wing_area wing_aspect_ratio wing_span_efficiency_factor wing_taper_ratio : ℝ) : ℝ :=
  (-((cl gamma atmosphere_mach vehicle_lift atmosphere_static_pressure wing_area) ^ 2)) / ((π *
    wing_aspect_ratio) * ((span_efficiency_6 wing_aspect_ratio wing_span_efficiency_factor
    wing_taper_ratio) ^ 2))

/-- aviary/subsystems/aerodynamics/flops_based/induced_drag.py:170 -/
noncomputable abbrev fact1 (wing_taper_ratio : ℝ) : ℝ := 1 - wing_taper_ratio

/-- aviary/subsystems/aerodynamics/flops_based/induced_drag.py:171 -/
noncomputable abbrev fact2 (wing_taper_ratio : ℝ) : ℝ := 1 / (1 + wing_taper_ratio)

/-- aviary/subsystems/aerodynamics/flops_based/induced_drag.py:172 -/
noncomputable abbrev th_2 (wing_aspect_ratio wing_taper_ratio : ℝ) : ℝ :=
  ((fact1 wing_taper_ratio) * (fact2 wing_taper_ratio)) / wing_aspect_ratio

/-- aviary/subsystems/aerodynamics/flops_based/induced_drag.py:173 -/
noncomputable abbrev dth_dtr (wing_aspect_ratio wing_taper_ratio : ℝ) : ℝ :=
  (-((fact2 wing_taper_ratio) + ((fact1 wing_taper_ratio) * ((fact2 wing_taper_ratio) ^ 2)))) /
    wing_aspect_ratio

/-- aviary/subsystems/aerodynamics/flops_based/induced_drag.py:174 -/
noncomputable abbrev dth_dar (wing_aspect_ratio wing_taper_ratio : ℝ) : ℝ :=
  ((-(fact1 wing_taper_ratio)) * (fact2 wing_taper_ratio)) / (wing_aspect_ratio ^ 2)

/-- aviary/subsystems/aerodynamics/flops_based/induced_drag.py:177 -/
noncomputable abbrev dtansw_dsw (wing_sweep : ℝ) : ℝ :=
  1 / (deg_to_rad * ((cos (wing_sweep / deg_to_rad)) ^ 2))

/-- aviary/subsystems/aerodynamics/flops_based/induced_drag.py:179 -/
noncomputable abbrev fact3 (wing_aspect_ratio wing_sweep wing_taper_ratio : ℝ) : ℝ :=
  1 + (((tan_sw wing_sweep) - (3 * (th_2 wing_aspect_ratio wing_taper_ratio))) ^ 2)

/-- aviary/subsystems/aerodynamics/flops_based/induced_drag.py:180 -/
noncomputable abbrev cosa_2 (wing_aspect_ratio wing_sweep wing_taper_ratio : ℝ) : ℝ :=
  1 / (sqrt (fact3 wing_aspect_ratio wing_sweep wing_taper_ratio))

/-- aviary/subsystems/aerodynamics/flops_based/induced_drag.py:181 -/
noncomputable abbrev dcosa_dtansw (wing_aspect_ratio wing_sweep wing_taper_ratio : ℝ) : ℝ :=
  (((-(1 / 2)) / ((fact3 wing_aspect_ratio wing_sweep wing_taper_ratio) ^ ((3 / 2) : ℝ))) * 2) *
    ((tan_sw wing_sweep) - (3 * (th_2 wing_aspect_ratio wing_taper_ratio)))

/-- aviary/subsystems/aerodynamics/flops_based/induced_drag.py:182 -/
noncomputable abbrev dcosa_dth (wing_aspect_ratio wing_sweep wing_taper_ratio : ℝ) : ℝ :=
  (((1 / 2) / ((fact3 wing_aspect_ratio wing_sweep wing_taper_ratio) ^ ((3 / 2) : ℝ))) * 6) *
    ((tan_sw wing_sweep) - (3 * (th_2 wing_aspect_ratio wing_taper_ratio)))

/-- aviary/subsystems/aerodynamics/flops_based/induced_drag.py:184 -/
noncomputable abbrev fact4 (wing_aspect_ratio wing_sweep wing_taper_ratio : ℝ) : ℝ :=
  1 + (((tan_sw wing_sweep) + (th_2 wing_aspect_ratio wing_taper_ratio)) ^ 2)

/-- aviary/subsystems/aerodynamics/flops_based/induced_drag.py:185 -/
noncomputable abbrev cosb_2 (wing_aspect_ratio wing_sweep wing_taper_ratio : ℝ) : ℝ :=
  1 / (sqrt (fact4 wing_aspect_ratio wing_sweep wing_taper_ratio))

/-- aviary/subsystems/aerodynamics/flops_based/induced_drag.py:186 -/
noncomputable abbrev dcosb_dtansw (wing_aspect_ratio wing_sweep wing_taper_ratio : ℝ) : ℝ :=
  (((-(1 / 2)) / ((fact4 wing_aspect_ratio wing_sweep wing_taper_ratio) ^ ((3 / 2) : ℝ))) * 2) *
    ((tan_sw wing_sweep) + (th_2 wing_aspect_ratio wing_taper_ratio))

/-- aviary/subsystems/aerodynamics/flops_based/induced_drag.py:187 -/
noncomputable abbrev dcosb_dth (wing_aspect_ratio wing_sweep wing_taper_ratio : ℝ) : ℝ :=
  (((-(1 / 2)) / ((fact4 wing_aspect_ratio wing_sweep wing_taper_ratio) ^ ((3 / 2) : ℝ))) * 2) *
    ((tan_sw wing_sweep) + (th_2 wing_aspect_ratio wing_taper_ratio))

/-- aviary/subsystems/aerodynamics/flops_based/induced_drag.py:189 -/
noncomputable abbrev facta (atmosphere_mach wing_aspect_ratio wing_sweep wing_taper_ratio : ℝ) : ℝ :=
  (11 / 10) - (atmosphere_mach * (cosa_2 wing_aspect_ratio wing_sweep wing_taper_ratio))

/-- aviary/subsystems/aerodynamics/flops_based/induced_drag.py:190 -/
noncomputable abbrev factb (atmosphere_mach wing_aspect_ratio wing_sweep wing_taper_ratio : ℝ) : ℝ :=
  (11 / 10) - (atmosphere_mach * (cosb_2 wing_aspect_ratio wing_sweep wing_taper_ratio))

/-- aviary/subsystems/aerodynamics/flops_based/induced_drag.py:191 -/
noncomputable abbrev fact5 (atmosphere_mach wing_aspect_ratio wing_sweep wing_taper_ratio : ℝ) : ℝ :=
  (11 / 10) - ((11 / 100) / (facta atmosphere_mach wing_aspect_ratio wing_sweep
    wing_taper_ratio))

/-- aviary/subsystems/aerodynamics/flops_based/induced_drag.py:192 -/
noncomputable abbrev fact6 (atmosphere_mach wing_aspect_ratio wing_sweep wing_taper_ratio : ℝ) : ℝ :=
  (11 / 10) - ((11 / 100) / (factb atmosphere_mach wing_aspect_ratio wing_sweep
    wing_taper_ratio))

/-- aviary/subsystems/aerodynamics/flops_based/induced_drag.py:193 -/
noncomputable abbrev cayt_2 (atmosphere_mach wing_aspect_ratio wing_sweep wing_taper_ratio : ℝ) : ℝ :=
  (1 / 2) * ((((fact5 atmosphere_mach wing_aspect_ratio wing_sweep wing_taper_ratio) / (fact6
    atmosphere_mach wing_aspect_ratio wing_sweep wing_taper_ratio)) - 1) ^ 2)

/-- aviary/subsystems/aerodynamics/flops_based/induced_drag.py:194 -/
noncomputable abbrev dcayt_dmach (atmosphere_mach wing_aspect_ratio wing_sweep wing_taper_ratio : ℝ) : ℝ :=
  (((fact5 atmosphere_mach wing_aspect_ratio wing_sweep wing_taper_ratio) / (fact6
    atmosphere_mach wing_aspect_ratio wing_sweep wing_taper_ratio)) - 1) * ((((-(11 / 100)) *
    (cosa_2 wing_aspect_ratio wing_sweep wing_taper_ratio)) / ((fact6 atmosphere_mach
    wing_aspect_ratio wing_sweep wing_taper_ratio) * ((facta atmosphere_mach wing_aspect_ratio
    wing_sweep wing_taper_ratio) ^ 2))) + ((((11 / 100) * (fact5 atmosphere_mach
    wing_aspect_ratio wing_sweep wing_taper_ratio)) * (cosb_2 wing_aspect_ratio wing_sweep
    wing_taper_ratio)) / (((factb atmosphere_mach wing_aspect_ratio wing_sweep wing_taper_ratio)
    ^ 2) * ((fact6 atmosphere_mach wing_aspect_ratio wing_sweep wing_taper_ratio) ^ 2))))

/-- aviary/subsystems/aerodynamics/flops_based/induced_drag.py:197 -/
noncomputable abbrev dcayt_dcosa (atmosphere_mach wing_aspect_ratio wing_sweep wing_taper_ratio : ℝ) : ℝ :=
  (((fact5 atmosphere_mach wing_aspect_ratio wing_sweep wing_taper_ratio) / (fact6
    atmosphere_mach wing_aspect_ratio wing_sweep wing_taper_ratio)) - 1) * (((-(11 / 100)) *
    atmosphere_mach) / ((fact6 atmosphere_mach wing_aspect_ratio wing_sweep wing_taper_ratio) *
    ((facta atmosphere_mach wing_aspect_ratio wing_sweep wing_taper_ratio) ^ 2)))

/-- aviary/subsystems/aerodynamics/flops_based/induced_drag.py:198 -/
noncomputable abbrev dcayt_dcosb (atmosphere_mach wing_aspect_ratio wing_sweep wing_taper_ratio : ℝ) : ℝ :=
  (((fact5 atmosphere_mach wing_aspect_ratio wing_sweep wing_taper_ratio) / (fact6
    atmosphere_mach wing_aspect_ratio wing_sweep wing_taper_ratio)) - 1) * ((((11 / 100) *
    (fact5 atmosphere_mach wing_aspect_ratio wing_sweep wing_taper_ratio)) * atmosphere_mach) /
    (((factb atmosphere_mach wing_aspect_ratio wing_sweep wing_taper_ratio) ^ 2) * ((fact6
    atmosphere_mach wing_aspect_ratio wing_sweep wing_taper_ratio) ^ 2)))

/-- aviary/subsystems/aerodynamics/flops_based/induced_drag.py:200 -/
noncomputable abbrev dcdi_dcayt (gamma atmosphere_mach vehicle_lift atmosphere_static_pressure wing_area : ℝ) : ℝ :=
  (cl gamma atmosphere_mach vehicle_lift atmosphere_static_pressure wing_area) ^ 2

/-- aviary/subsystems/aerodynamics/flops_based/induced_drag.py:201 -/
noncomputable abbrev dcdi_dcl_2 (gamma atmosphere_mach vehicle_lift atmosphere_static_pressure wing_area wing_aspect_ratio wing_sweep wing_taper_ratio : ℝ) : ℝ :=
  (2 * (cayt_2 atmosphere_mach wing_aspect_ratio wing_sweep wing_taper_ratio)) * (cl gamma
    atmosphere_mach vehicle_lift atmosphere_static_pressure wing_area)

/-- Output `induced_drag_coeff` of `InducedDrag.compute`, aviary/subsystems/aerodynamics/flops_based/induced_drag.py:108 -/
noncomputable def out_induced_drag_coeff (gamma atmosphere_mach vehicle_lift atmosphere_static_pressure wing_area wing_aspect_ratio wing_span_efficiency_factor wing_sweep wing_taper_ratio : ℝ) : ℝ :=
  cdi_3 gamma atmosphere_mach vehicle_lift atmosphere_static_pressure wing_area
    wing_aspect_ratio wing_span_efficiency_factor wing_sweep wing_taper_ratio

/-- Partial of `induced_drag_coeff` with respect to `atmosphere_mach` as set by `InducedDrag`, aviary/subsystems/aerodynamics/flops_based/induced_drag.py:203 -/
noncomputable def J_induced_drag_coeff__atmosphere_mach (gamma atmosphere_mach vehicle_lift atmosphere_static_pressure wing_area wing_aspect_ratio wing_span_efficiency_factor wing_sweep wing_taper_ratio : ℝ) : ℝ :=
  if wing_sweep < 0 then (((dcdi_dcl gamma atmosphere_mach vehicle_lift
    atmosphere_static_pressure wing_area wing_aspect_ratio wing_span_efficiency_factor
    wing_taper_ratio) * (dcl_dmach gamma atmosphere_mach vehicle_lift atmosphere_static_pressure
    wing_area)) + (((dcdi_dcl_2 gamma atmosphere_mach vehicle_lift atmosphere_static_pressure
    wing_area wing_aspect_ratio wing_sweep wing_taper_ratio) * (dcl_dmach gamma atmosphere_mach
    vehicle_lift atmosphere_static_pressure wing_area)) + ((dcdi_dcayt gamma atmosphere_mach
    vehicle_lift atmosphere_static_pressure wing_area) * (dcayt_dmach atmosphere_mach
    wing_aspect_ratio wing_sweep wing_taper_ratio)))) else ((dcdi_dcl gamma atmosphere_mach
    vehicle_lift atmosphere_static_pressure wing_area wing_aspect_ratio
    wing_span_efficiency_factor wing_taper_ratio) * (dcl_dmach gamma atmosphere_mach
    vehicle_lift atmosphere_static_pressure wing_area))

/-- Partial of `induced_drag_coeff` with respect to `vehicle_lift` as set by `InducedDrag`, aviary/subsystems/aerodynamics/flops_based/induced_drag.py:206 -/
noncomputable def J_induced_drag_coeff__vehicle_lift (gamma atmosphere_mach vehicle_lift atmosphere_static_pressure wing_area wing_aspect_ratio wing_span_efficiency_factor wing_sweep wing_taper_ratio : ℝ) : ℝ :=
  if wing_sweep < 0 then (((dcdi_dcl gamma atmosphere_mach vehicle_lift
    atmosphere_static_pressure wing_area wing_aspect_ratio wing_span_efficiency_factor
    wing_taper_ratio) * (dcl_dl gamma atmosphere_mach atmosphere_static_pressure wing_area)) +
    ((dcdi_dcl_2 gamma atmosphere_mach vehicle_lift atmosphere_static_pressure wing_area
    wing_aspect_ratio wing_sweep wing_taper_ratio) * (dcl_dl gamma atmosphere_mach
    atmosphere_static_pressure wing_area))) else ((dcdi_dcl gamma atmosphere_mach vehicle_lift
    atmosphere_static_pressure wing_area wing_aspect_ratio wing_span_efficiency_factor
    wing_taper_ratio) * (dcl_dl gamma atmosphere_mach atmosphere_static_pressure wing_area))

/-- Partial of `induced_drag_coeff` with respect to `atmosphere_static_pressure` as set by `InducedDrag`, aviary/subsystems/aerodynamics/flops_based/induced_drag.py:213 -/
noncomputable def J_induced_drag_coeff__atmosphere_static_pressure (gamma atmosphere_mach vehicle_lift atmosphere_static_pressure wing_area wing_aspect_ratio wing_span_efficiency_factor wing_sweep wing_taper_ratio : ℝ) : ℝ :=
  if wing_sweep < 0 then (((dcdi_dcl gamma atmosphere_mach vehicle_lift
    atmosphere_static_pressure wing_area wing_aspect_ratio wing_span_efficiency_factor
    wing_taper_ratio) * (dcl_dp gamma atmosphere_mach vehicle_lift atmosphere_static_pressure
    wing_area)) + ((dcdi_dcl_2 gamma atmosphere_mach vehicle_lift atmosphere_static_pressure
    wing_area wing_aspect_ratio wing_sweep wing_taper_ratio) * (dcl_dp gamma atmosphere_mach
    vehicle_lift atmosphere_static_pressure wing_area))) else ((dcdi_dcl gamma atmosphere_mach
    vehicle_lift atmosphere_static_pressure wing_area wing_aspect_ratio
    wing_span_efficiency_factor wing_taper_ratio) * (dcl_dp gamma atmosphere_mach vehicle_lift
    atmosphere_static_pressure wing_area))

/-- Partial of `induced_drag_coeff` with respect to `wing_aspect_ratio` as set by `InducedDrag`, aviary/subsystems/aerodynamics/flops_based/induced_drag.py:207 -/
noncomputable def J_induced_drag_coeff__wing_aspect_ratio (gamma atmosphere_mach vehicle_lift atmosphere_static_pressure wing_area wing_aspect_ratio wing_span_efficiency_factor wing_sweep wing_taper_ratio : ℝ) : ℝ :=
  if wing_sweep < 0 then ((if wing_span_efficiency_factor ≤ (3 / 10) then ((dcdi_dar gamma
    atmosphere_mach vehicle_lift atmosphere_static_pressure wing_area wing_aspect_ratio
    wing_span_efficiency_factor wing_taper_ratio) + ((dcdi_dspan gamma atmosphere_mach
    vehicle_lift atmosphere_static_pressure wing_area wing_aspect_ratio
    wing_span_efficiency_factor wing_taper_ratio) * (dse0_dar wing_aspect_ratio
    wing_taper_ratio))) else ((dcdi_dar gamma atmosphere_mach vehicle_lift
    atmosphere_static_pressure wing_area wing_aspect_ratio wing_span_efficiency_factor
    wing_taper_ratio) + (((dcdi_dspan gamma atmosphere_mach vehicle_lift
    atmosphere_static_pressure wing_area wing_aspect_ratio wing_span_efficiency_factor
    wing_taper_ratio) * (dse0_dar wing_aspect_ratio wing_taper_ratio)) *
    wing_span_efficiency_factor))) + (((dcdi_dcayt gamma atmosphere_mach vehicle_lift
    atmosphere_static_pressure wing_area) * (dth_dar wing_aspect_ratio wing_taper_ratio)) *
    (((dcayt_dcosa atmosphere_mach wing_aspect_ratio wing_sweep wing_taper_ratio) * (dcosa_dth
    wing_aspect_ratio wing_sweep wing_taper_ratio)) + ((dcayt_dcosb atmosphere_mach
    wing_aspect_ratio wing_sweep wing_taper_ratio) * (dcosb_dth wing_aspect_ratio wing_sweep
    wing_taper_ratio))))) else (if wing_span_efficiency_factor ≤ (3 / 10) then ((dcdi_dar gamma
    atmosphere_mach vehicle_lift atmosphere_static_pressure wing_area wing_aspect_ratio
    wing_span_efficiency_factor wing_taper_ratio) + ((dcdi_dspan gamma atmosphere_mach
    vehicle_lift atmosphere_static_pressure wing_area wing_aspect_ratio
    wing_span_efficiency_factor wing_taper_ratio) * (dse0_dar wing_aspect_ratio
    wing_taper_ratio))) else ((dcdi_dar gamma atmosphere_mach vehicle_lift
    atmosphere_static_pressure wing_area wing_aspect_ratio wing_span_efficiency_factor
    wing_taper_ratio) + (((dcdi_dspan gamma atmosphere_mach vehicle_lift
    atmosphere_static_pressure wing_area wing_aspect_ratio wing_span_efficiency_factor
    wing_taper_ratio) * (dse0_dar wing_aspect_ratio wing_taper_ratio)) *
    wing_span_efficiency_factor)))

/-- Partial of `induced_drag_coeff` with respect to `wing_span_efficiency_factor` as set by `InducedDrag`, aviary/subsystems/aerodynamics/flops_based/induced_drag.py:155 -/
noncomputable def J_induced_drag_coeff__wing_span_efficiency_factor (gamma atmosphere_mach vehicle_lift atmosphere_static_pressure wing_area wing_aspect_ratio wing_span_efficiency_factor wing_taper_ratio : ℝ) : ℝ :=
  if wing_span_efficiency_factor ≤ (3 / 10) then (dcdi_dspan gamma atmosphere_mach vehicle_lift
    atmosphere_static_pressure wing_area wing_aspect_ratio wing_span_efficiency_factor
    wing_taper_ratio) else ((dcdi_dspan gamma atmosphere_mach vehicle_lift
    atmosphere_static_pressure wing_area wing_aspect_ratio wing_span_efficiency_factor
    wing_taper_ratio) * (span_efficiency_0_2 wing_aspect_ratio wing_taper_ratio))

/-- Partial of `induced_drag_coeff` with respect to `wing_sweep` as set by `InducedDrag`, aviary/subsystems/aerodynamics/flops_based/induced_drag.py:210 -/
noncomputable def J_induced_drag_coeff__wing_sweep (gamma atmosphere_mach vehicle_lift atmosphere_static_pressure wing_area wing_aspect_ratio wing_sweep wing_taper_ratio : ℝ) : ℝ :=
  if wing_sweep < 0 then (0 + (((dcdi_dcayt gamma atmosphere_mach vehicle_lift
    atmosphere_static_pressure wing_area) * (dtansw_dsw wing_sweep)) * (((dcayt_dcosa
    atmosphere_mach wing_aspect_ratio wing_sweep wing_taper_ratio) * (dcosa_dtansw
    wing_aspect_ratio wing_sweep wing_taper_ratio)) + ((dcayt_dcosb atmosphere_mach
    wing_aspect_ratio wing_sweep wing_taper_ratio) * (dcosb_dtansw wing_aspect_ratio wing_sweep
    wing_taper_ratio))))) else 0

/-- Partial of `induced_drag_coeff` with respect to `wing_taper_ratio` as set by `InducedDrag`, aviary/subsystems/aerodynamics/flops_based/induced_drag.py:214 -/
noncomputable def J_induced_drag_coeff__wing_taper_ratio (gamma atmosphere_mach vehicle_lift atmosphere_static_pressure wing_area wing_aspect_ratio wing_span_efficiency_factor wing_sweep wing_taper_ratio : ℝ) : ℝ :=
  if wing_sweep < 0 then ((if wing_span_efficiency_factor ≤ (3 / 10) then ((dcdi_dspan gamma
    atmosphere_mach vehicle_lift atmosphere_static_pressure wing_area wing_aspect_ratio
    wing_span_efficiency_factor wing_taper_ratio) * (dse0_dtr wing_aspect_ratio)) else
    (((dcdi_dspan gamma atmosphere_mach vehicle_lift atmosphere_static_pressure wing_area
    wing_aspect_ratio wing_span_efficiency_factor wing_taper_ratio) * (dse0_dtr
    wing_aspect_ratio)) * wing_span_efficiency_factor)) + (((dcdi_dcayt gamma atmosphere_mach
    vehicle_lift atmosphere_static_pressure wing_area) * (dth_dtr wing_aspect_ratio
    wing_taper_ratio)) * (((dcayt_dcosa atmosphere_mach wing_aspect_ratio wing_sweep
    wing_taper_ratio) * (dcosa_dth wing_aspect_ratio wing_sweep wing_taper_ratio)) +
    ((dcayt_dcosb atmosphere_mach wing_aspect_ratio wing_sweep wing_taper_ratio) * (dcosb_dth
    wing_aspect_ratio wing_sweep wing_taper_ratio))))) else (if wing_span_efficiency_factor ≤ (3
    / 10) then ((dcdi_dspan gamma atmosphere_mach vehicle_lift atmosphere_static_pressure
    wing_area wing_aspect_ratio wing_span_efficiency_factor wing_taper_ratio) * (dse0_dtr
    wing_aspect_ratio)) else (((dcdi_dspan gamma atmosphere_mach vehicle_lift
    atmosphere_static_pressure wing_area wing_aspect_ratio wing_span_efficiency_factor
    wing_taper_ratio) * (dse0_dtr wing_aspect_ratio)) * wing_span_efficiency_factor))

/-- Partial of `induced_drag_coeff` with respect to `wing_area` as set by `InducedDrag`, aviary/subsystems/aerodynamics/flops_based/induced_drag.py:217 -/
noncomputable def J_induced_drag_coeff__wing_area (gamma atmosphere_mach vehicle_lift atmosphere_static_pressure wing_area wing_aspect_ratio wing_span_efficiency_factor wing_sweep wing_taper_ratio : ℝ) : ℝ :=
  if wing_sweep < 0 then (((dcdi_dcl gamma atmosphere_mach vehicle_lift
    atmosphere_static_pressure wing_area wing_aspect_ratio wing_span_efficiency_factor
    wing_taper_ratio) * (dcl_dsref gamma atmosphere_mach vehicle_lift atmosphere_static_pressure
    wing_area)) + ((dcdi_dcl_2 gamma atmosphere_mach vehicle_lift atmosphere_static_pressure
    wing_area wing_aspect_ratio wing_sweep wing_taper_ratio) * (dcl_dsref gamma atmosphere_mach
    vehicle_lift atmosphere_static_pressure wing_area))) else ((dcdi_dcl gamma atmosphere_mach
    vehicle_lift atmosphere_static_pressure wing_area wing_aspect_ratio
    wing_span_efficiency_factor wing_taper_ratio) * (dcl_dsref gamma atmosphere_mach
    vehicle_lift atmosphere_static_pressure wing_area))

theorem d_induced_drag_coeff__vehicle_lift (gamma atmosphere_mach vehicle_lift
    atmosphere_static_pressure wing_area wing_aspect_ratio wing_span_efficiency_factor wing_sweep
    wing_taper_ratio : ℝ) (h0 : 0 < wing_area) (h1 : 0 < gamma) (h2 : 0 <
    atmosphere_static_pressure) (h3 : 0 < atmosphere_mach) (h4 : 0 < wing_aspect_ratio) (h5 : (1 +
    (((1 / 10) * wing_aspect_ratio) * ((((2113 / 5000) * (sqrt wing_aspect_ratio)) - ((7 / 20) *
    wing_taper_ratio)) - (143 / 1000)))) + wing_span_efficiency_factor ≠ 0) (h6 : 0 < (((2113 /
    5000) * (sqrt wing_aspect_ratio)) - ((7 / 20) * wing_taper_ratio)) - (143 / 1000)) (h7 : 0 <
    wing_span_efficiency_factor) (h8 : cos (wing_sweep / (π / 180)) ≠ 0) (h9 : 0 <
    wing_taper_ratio) (h10 : (tan (wing_sweep / (π / 180))) - (3 * (((1 - wing_taper_ratio) / (1 +
    wing_taper_ratio)) / wing_aspect_ratio)) ≠ 0) (h11 : (11 / 10) - (atmosphere_mach * (1 / (sqrt
    (1 + (((tan (wing_sweep / (π / 180))) - (3 * (((1 - wing_taper_ratio) / (1 +
    wing_taper_ratio)) / wing_aspect_ratio))) ^ 2))))) ≠ 0) (h12 : (tan (wing_sweep / (π / 180)))
    + (((1 - wing_taper_ratio) / (1 + wing_taper_ratio)) / wing_aspect_ratio) ≠ 0) (h13 : (11 /
    10) - (atmosphere_mach * (1 / (sqrt (1 + (((tan (wing_sweep / (π / 180))) + (((1 -
    wing_taper_ratio) / (1 + wing_taper_ratio)) / wing_aspect_ratio)) ^ 2))))) ≠ 0) (h14 : (11 /
    10) - ((11 / 100) / ((11 / 10) - (atmosphere_mach * (1 / (sqrt (1 + (((tan (wing_sweep / (π /
    180))) + (((1 - wing_taper_ratio) / (1 + wing_taper_ratio)) / wing_aspect_ratio)) ^ 2))))))) ≠
    0) (h15 : (1 + (((1 / 10) * wing_aspect_ratio) * ((((2113 / 5000) * (sqrt wing_aspect_ratio))
    - ((7 / 20) * wing_taper_ratio)) - (143 / 1000)))) + wing_span_efficiency_factor ≠ 0) (h16 : 0
    < (((2113 / 5000) * (sqrt wing_aspect_ratio)) - ((7 / 20) * wing_taper_ratio)) - (143 / 1000))
    (h17 : (tan (wing_sweep / (π / 180))) - (3 * (((1 - wing_taper_ratio) * (1 / (1 +
    wing_taper_ratio))) / wing_aspect_ratio)) ≠ 0) (h18 : (11 / 10) - (atmosphere_mach * (1 /
    (sqrt (1 + (((tan (wing_sweep / (π / 180))) - (3 * (((1 - wing_taper_ratio) * (1 / (1 +
    wing_taper_ratio))) / wing_aspect_ratio))) ^ 2))))) ≠ 0) (h19 : (tan (wing_sweep / (π / 180)))
    + (((1 - wing_taper_ratio) * (1 / (1 + wing_taper_ratio))) / wing_aspect_ratio) ≠ 0) (h20 :
    (11 / 10) - (atmosphere_mach * (1 / (sqrt (1 + (((tan (wing_sweep / (π / 180))) + (((1 -
    wing_taper_ratio) * (1 / (1 + wing_taper_ratio))) / wing_aspect_ratio)) ^ 2))))) ≠ 0) (h21 :
    (11 / 10) - ((11 / 100) / ((11 / 10) - (atmosphere_mach * (1 / (sqrt (1 + (((tan (wing_sweep /
    (π / 180))) + (((1 - wing_taper_ratio) * (1 / (1 + wing_taper_ratio))) / wing_aspect_ratio)) ^
    2))))))) ≠ 0) :
    HasDerivAt (fun t => out_induced_drag_coeff gamma atmosphere_mach t atmosphere_static_pressure wing_area wing_aspect_ratio wing_span_efficiency_factor wing_sweep wing_taper_ratio) (J_induced_drag_coeff__vehicle_lift gamma atmosphere_mach vehicle_lift atmosphere_static_pressure wing_area wing_aspect_ratio wing_span_efficiency_factor wing_sweep wing_taper_ratio) vehicle_lift := by
  simp only [out_induced_drag_coeff, J_induced_drag_coeff__vehicle_lift, dcdi_dcl_2, cayt_2, fact6, factb, cosb_2, fact4, fact5, facta, cosa_2, fact3, th_2, fact2, fact1, dcl_dl, dcdi_dcl, span_efficiency_6, span_efficiency_5, span_efficiency_4, span_efficiency_0_2, sqrt_ar, cdi_3, cdi_2, cayt, cosb, cosa, th, tan_sw, deg_to_rad, cdi, span_efficiency_3, span_efficiency_2, span_efficiency, span_efficiency_0, cl, sqrt_eq_rpow]
  try split_ifs
  all_goals (apply hasDerivAt_of_eq; on_goal 1 => (repeat' comp_step))
  all_goals try comp_side
  all_goals try simp (disch := first | assumption | positivity) only [div_mul_eq_div_div, div_half, inv_half]
  all_goals try split_ifs
  all_goals try (exfalso; linarith)
  all_goals try simp only [mul_zero, zero_mul, add_zero, zero_add, sub_zero, zero_sub, mul_one, one_mul]
  all_goals try push_cast
  all_goals comp_eq

theorem d_induced_drag_coeff__atmosphere_static_pressure (gamma atmosphere_mach vehicle_lift
    atmosphere_static_pressure wing_area wing_aspect_ratio wing_span_efficiency_factor wing_sweep
    wing_taper_ratio : ℝ) (h0 : 0 < wing_area) (h1 : 0 < gamma) (h2 : 0 <
    atmosphere_static_pressure) (h3 : 0 < atmosphere_mach) (h4 : 0 < wing_aspect_ratio) (h5 : (1 +
    (((1 / 10) * wing_aspect_ratio) * ((((2113 / 5000) * (sqrt wing_aspect_ratio)) - ((7 / 20) *
    wing_taper_ratio)) - (143 / 1000)))) + wing_span_efficiency_factor ≠ 0) (h6 : 0 < (((2113 /
    5000) * (sqrt wing_aspect_ratio)) - ((7 / 20) * wing_taper_ratio)) - (143 / 1000)) (h7 : 0 <
    wing_span_efficiency_factor) (h8 : cos (wing_sweep / (π / 180)) ≠ 0) (h9 : 0 <
    wing_taper_ratio) (h10 : (tan (wing_sweep / (π / 180))) - (3 * (((1 - wing_taper_ratio) / (1 +
    wing_taper_ratio)) / wing_aspect_ratio)) ≠ 0) (h11 : (11 / 10) - (atmosphere_mach * (1 / (sqrt
    (1 + (((tan (wing_sweep / (π / 180))) - (3 * (((1 - wing_taper_ratio) / (1 +
    wing_taper_ratio)) / wing_aspect_ratio))) ^ 2))))) ≠ 0) (h12 : (tan (wing_sweep / (π / 180)))
    + (((1 - wing_taper_ratio) / (1 + wing_taper_ratio)) / wing_aspect_ratio) ≠ 0) (h13 : (11 /
    10) - (atmosphere_mach * (1 / (sqrt (1 + (((tan (wing_sweep / (π / 180))) + (((1 -
    wing_taper_ratio) / (1 + wing_taper_ratio)) / wing_aspect_ratio)) ^ 2))))) ≠ 0) (h14 : (11 /
    10) - ((11 / 100) / ((11 / 10) - (atmosphere_mach * (1 / (sqrt (1 + (((tan (wing_sweep / (π /
    180))) + (((1 - wing_taper_ratio) / (1 + wing_taper_ratio)) / wing_aspect_ratio)) ^ 2))))))) ≠
    0) (h15 : (1 + (((1 / 10) * wing_aspect_ratio) * ((((2113 / 5000) * (sqrt wing_aspect_ratio))
    - ((7 / 20) * wing_taper_ratio)) - (143 / 1000)))) + wing_span_efficiency_factor ≠ 0) (h16 : 0
    < (((2113 / 5000) * (sqrt wing_aspect_ratio)) - ((7 / 20) * wing_taper_ratio)) - (143 / 1000))
    (h17 : (tan (wing_sweep / (π / 180))) - (3 * (((1 - wing_taper_ratio) * (1 / (1 +
    wing_taper_ratio))) / wing_aspect_ratio)) ≠ 0) (h18 : (11 / 10) - (atmosphere_mach * (1 /
    (sqrt (1 + (((tan (wing_sweep / (π / 180))) - (3 * (((1 - wing_taper_ratio) * (1 / (1 +
    wing_taper_ratio))) / wing_aspect_ratio))) ^ 2))))) ≠ 0) (h19 : (tan (wing_sweep / (π / 180)))
    + (((1 - wing_taper_ratio) * (1 / (1 + wing_taper_ratio))) / wing_aspect_ratio) ≠ 0) (h20 :
    (11 / 10) - (atmosphere_mach * (1 / (sqrt (1 + (((tan (wing_sweep / (π / 180))) + (((1 -
    wing_taper_ratio) * (1 / (1 + wing_taper_ratio))) / wing_aspect_ratio)) ^ 2))))) ≠ 0) (h21 :
    (11 / 10) - ((11 / 100) / ((11 / 10) - (atmosphere_mach * (1 / (sqrt (1 + (((tan (wing_sweep /
    (π / 180))) + (((1 - wing_taper_ratio) * (1 / (1 + wing_taper_ratio))) / wing_aspect_ratio)) ^
    2))))))) ≠ 0) :
    HasDerivAt (fun t => out_induced_drag_coeff gamma atmosphere_mach vehicle_lift t wing_area wing_aspect_ratio wing_span_efficiency_factor wing_sweep wing_taper_ratio) (J_induced_drag_coeff__atmosphere_static_pressure gamma atmosphere_mach vehicle_lift atmosphere_static_pressure wing_area wing_aspect_ratio wing_span_efficiency_factor wing_sweep wing_taper_ratio) atmosphere_static_pressure := by
  simp only [out_induced_drag_coeff, J_induced_drag_coeff__atmosphere_static_pressure, dcdi_dcl_2, cayt_2, fact6, factb, cosb_2, fact4, fact5, facta, cosa_2, fact3, th_2, fact2, fact1, dcl_dp, dcdi_dcl, span_efficiency_6, span_efficiency_5, span_efficiency_4, span_efficiency_0_2, sqrt_ar, cdi_3, cdi_2, cayt, cosb, cosa, th, tan_sw, deg_to_rad, cdi, span_efficiency_3, span_efficiency_2, span_efficiency, span_efficiency_0, cl, sqrt_eq_rpow]
  try split_ifs
  all_goals (apply hasDerivAt_of_eq; on_goal 1 => (repeat' comp_step))
  all_goals try comp_side
  all_goals try simp (disch := first | assumption | positivity) only [div_mul_eq_div_div, div_half, inv_half]
  all_goals try split_ifs
  all_goals try (exfalso; linarith)
  all_goals try simp only [mul_zero, zero_mul, add_zero, zero_add, sub_zero, zero_sub, mul_one, one_mul]
  all_goals try push_cast
  all_goals comp_eq

theorem d_induced_drag_coeff__wing_area (gamma atmosphere_mach vehicle_lift
    atmosphere_static_pressure wing_area wing_aspect_ratio wing_span_efficiency_factor wing_sweep
    wing_taper_ratio : ℝ) (h0 : 0 < wing_area) (h1 : 0 < gamma) (h2 : 0 <
    atmosphere_static_pressure) (h3 : 0 < atmosphere_mach) (h4 : 0 < wing_aspect_ratio) (h5 : (1 +
    (((1 / 10) * wing_aspect_ratio) * ((((2113 / 5000) * (sqrt wing_aspect_ratio)) - ((7 / 20) *
    wing_taper_ratio)) - (143 / 1000)))) + wing_span_efficiency_factor ≠ 0) (h6 : 0 < (((2113 /
    5000) * (sqrt wing_aspect_ratio)) - ((7 / 20) * wing_taper_ratio)) - (143 / 1000)) (h7 : 0 <
    wing_span_efficiency_factor) (h8 : cos (wing_sweep / (π / 180)) ≠ 0) (h9 : 0 <
    wing_taper_ratio) (h10 : (tan (wing_sweep / (π / 180))) - (3 * (((1 - wing_taper_ratio) / (1 +
    wing_taper_ratio)) / wing_aspect_ratio)) ≠ 0) (h11 : (11 / 10) - (atmosphere_mach * (1 / (sqrt
    (1 + (((tan (wing_sweep / (π / 180))) - (3 * (((1 - wing_taper_ratio) / (1 +
    wing_taper_ratio)) / wing_aspect_ratio))) ^ 2))))) ≠ 0) (h12 : (tan (wing_sweep / (π / 180)))
    + (((1 - wing_taper_ratio) / (1 + wing_taper_ratio)) / wing_aspect_ratio) ≠ 0) (h13 : (11 /
    10) - (atmosphere_mach * (1 / (sqrt (1 + (((tan (wing_sweep / (π / 180))) + (((1 -
    wing_taper_ratio) / (1 + wing_taper_ratio)) / wing_aspect_ratio)) ^ 2))))) ≠ 0) (h14 : (11 /
    10) - ((11 / 100) / ((11 / 10) - (atmosphere_mach * (1 / (sqrt (1 + (((tan (wing_sweep / (π /
    180))) + (((1 - wing_taper_ratio) / (1 + wing_taper_ratio)) / wing_aspect_ratio)) ^ 2))))))) ≠
    0) (h15 : (1 + (((1 / 10) * wing_aspect_ratio) * ((((2113 / 5000) * (sqrt wing_aspect_ratio))
    - ((7 / 20) * wing_taper_ratio)) - (143 / 1000)))) + wing_span_efficiency_factor ≠ 0) (h16 : 0
    < (((2113 / 5000) * (sqrt wing_aspect_ratio)) - ((7 / 20) * wing_taper_ratio)) - (143 / 1000))
    (h17 : (tan (wing_sweep / (π / 180))) - (3 * (((1 - wing_taper_ratio) * (1 / (1 +
    wing_taper_ratio))) / wing_aspect_ratio)) ≠ 0) (h18 : (11 / 10) - (atmosphere_mach * (1 /
    (sqrt (1 + (((tan (wing_sweep / (π / 180))) - (3 * (((1 - wing_taper_ratio) * (1 / (1 +
    wing_taper_ratio))) / wing_aspect_ratio))) ^ 2))))) ≠ 0) (h19 : (tan (wing_sweep / (π / 180)))
    + (((1 - wing_taper_ratio) * (1 / (1 + wing_taper_ratio))) / wing_aspect_ratio) ≠ 0) (h20 :
    (11 / 10) - (atmosphere_mach * (1 / (sqrt (1 + (((tan (wing_sweep / (π / 180))) + (((1 -
    wing_taper_ratio) * (1 / (1 + wing_taper_ratio))) / wing_aspect_ratio)) ^ 2))))) ≠ 0) (h21 :
    (11 / 10) - ((11 / 100) / ((11 / 10) - (atmosphere_mach * (1 / (sqrt (1 + (((tan (wing_sweep /
    (π / 180))) + (((1 - wing_taper_ratio) * (1 / (1 + wing_taper_ratio))) / wing_aspect_ratio)) ^
    2))))))) ≠ 0) :
    HasDerivAt (fun t => out_induced_drag_coeff gamma atmosphere_mach vehicle_lift atmosphere_static_pressure t wing_aspect_ratio wing_span_efficiency_factor wing_sweep wing_taper_ratio) (J_induced_drag_coeff__wing_area gamma atmosphere_mach vehicle_lift atmosphere_static_pressure wing_area wing_aspect_ratio wing_span_efficiency_factor wing_sweep wing_taper_ratio) wing_area := by
  simp only [out_induced_drag_coeff, J_induced_drag_coeff__wing_area, dcdi_dcl_2, cayt_2, fact6, factb, cosb_2, fact4, fact5, facta, cosa_2, fact3, th_2, fact2, fact1, dcl_dsref, dcdi_dcl, span_efficiency_6, span_efficiency_5, span_efficiency_4, span_efficiency_0_2, sqrt_ar, cdi_3, cdi_2, cayt, cosb, cosa, th, tan_sw, deg_to_rad, cdi, span_efficiency_3, span_efficiency_2, span_efficiency, span_efficiency_0, cl, sqrt_eq_rpow]
  try split_ifs
  all_goals (apply hasDerivAt_of_eq; on_goal 1 => (repeat' comp_step))
  all_goals try comp_side
  all_goals try simp (disch := first | assumption | positivity) only [div_mul_eq_div_div, div_half, inv_half]
  all_goals try split_ifs
  all_goals try (exfalso; linarith)
  all_goals try simp only [mul_zero, zero_mul, add_zero, zero_add, sub_zero, zero_sub, mul_one, one_mul]
  all_goals try push_cast
  all_goals comp_eq

/-- Partial derivatives of `InducedDrag` that are proved correct (the rest is listed in the header). -/
theorem partials_partial (gamma atmosphere_mach vehicle_lift atmosphere_static_pressure wing_area
    wing_aspect_ratio wing_span_efficiency_factor wing_sweep wing_taper_ratio : ℝ) (h0 : 0 <
    wing_area) (h1 : 0 < gamma) (h2 : 0 < atmosphere_static_pressure) (h3 : 0 < atmosphere_mach)
    (h4 : 0 < wing_aspect_ratio) (h5 : (1 + (((1 / 10) * wing_aspect_ratio) * ((((2113 / 5000) *
    (sqrt wing_aspect_ratio)) - ((7 / 20) * wing_taper_ratio)) - (143 / 1000)))) +
    wing_span_efficiency_factor ≠ 0) (h6 : 0 < (((2113 / 5000) * (sqrt wing_aspect_ratio)) - ((7 /
    20) * wing_taper_ratio)) - (143 / 1000)) (h7 : 0 < wing_span_efficiency_factor) (h8 : cos
    (wing_sweep / (π / 180)) ≠ 0) (h9 : 0 < wing_taper_ratio) (h10 : (tan (wing_sweep / (π /
    180))) - (3 * (((1 - wing_taper_ratio) / (1 + wing_taper_ratio)) / wing_aspect_ratio)) ≠ 0)
    (h11 : (11 / 10) - (atmosphere_mach * (1 / (sqrt (1 + (((tan (wing_sweep / (π / 180))) - (3 *
    (((1 - wing_taper_ratio) / (1 + wing_taper_ratio)) / wing_aspect_ratio))) ^ 2))))) ≠ 0) (h12 :
    (tan (wing_sweep / (π / 180))) + (((1 - wing_taper_ratio) / (1 + wing_taper_ratio)) /
    wing_aspect_ratio) ≠ 0) (h13 : (11 / 10) - (atmosphere_mach * (1 / (sqrt (1 + (((tan
    (wing_sweep / (π / 180))) + (((1 - wing_taper_ratio) / (1 + wing_taper_ratio)) /
    wing_aspect_ratio)) ^ 2))))) ≠ 0) (h14 : (11 / 10) - ((11 / 100) / ((11 / 10) -
    (atmosphere_mach * (1 / (sqrt (1 + (((tan (wing_sweep / (π / 180))) + (((1 - wing_taper_ratio)
    / (1 + wing_taper_ratio)) / wing_aspect_ratio)) ^ 2))))))) ≠ 0) (h15 : (tan (wing_sweep / (π /
    180))) - (3 * (((1 - wing_taper_ratio) * (1 / (1 + wing_taper_ratio))) / wing_aspect_ratio)) ≠
    0) (h16 : (11 / 10) - (atmosphere_mach * (1 / (sqrt (1 + (((tan (wing_sweep / (π / 180))) - (3
    * (((1 - wing_taper_ratio) * (1 / (1 + wing_taper_ratio))) / wing_aspect_ratio))) ^ 2))))) ≠
    0) (h17 : (tan (wing_sweep / (π / 180))) + (((1 - wing_taper_ratio) * (1 / (1 +
    wing_taper_ratio))) / wing_aspect_ratio) ≠ 0) (h18 : (11 / 10) - (atmosphere_mach * (1 / (sqrt
    (1 + (((tan (wing_sweep / (π / 180))) + (((1 - wing_taper_ratio) * (1 / (1 +
    wing_taper_ratio))) / wing_aspect_ratio)) ^ 2))))) ≠ 0) (h19 : (11 / 10) - ((11 / 100) / ((11
    / 10) - (atmosphere_mach * (1 / (sqrt (1 + (((tan (wing_sweep / (π / 180))) + (((1 -
    wing_taper_ratio) * (1 / (1 + wing_taper_ratio))) / wing_aspect_ratio)) ^ 2))))))) ≠ 0) :
    HasDerivAt (fun t => out_induced_drag_coeff gamma atmosphere_mach t atmosphere_static_pressure
      wing_area wing_aspect_ratio wing_span_efficiency_factor wing_sweep wing_taper_ratio)
      (J_induced_drag_coeff__vehicle_lift gamma atmosphere_mach vehicle_lift
      atmosphere_static_pressure wing_area wing_aspect_ratio wing_span_efficiency_factor
      wing_sweep wing_taper_ratio) vehicle_lift ∧
    HasDerivAt (fun t => out_induced_drag_coeff gamma atmosphere_mach vehicle_lift t wing_area
      wing_aspect_ratio wing_span_efficiency_factor wing_sweep wing_taper_ratio)
      (J_induced_drag_coeff__atmosphere_static_pressure gamma atmosphere_mach vehicle_lift
      atmosphere_static_pressure wing_area wing_aspect_ratio wing_span_efficiency_factor
      wing_sweep wing_taper_ratio) atmosphere_static_pressure ∧
    HasDerivAt (fun t => out_induced_drag_coeff gamma atmosphere_mach vehicle_lift
      atmosphere_static_pressure t wing_aspect_ratio wing_span_efficiency_factor wing_sweep
      wing_taper_ratio) (J_induced_drag_coeff__wing_area gamma atmosphere_mach vehicle_lift
      atmosphere_static_pressure wing_area wing_aspect_ratio wing_span_efficiency_factor
      wing_sweep wing_taper_ratio) wing_area :=
  ⟨d_induced_drag_coeff__vehicle_lift _ _ _ _ _ _ _ _ _ h0 h1 h2 h3 h4 h5 h6 h7 h8 h9 h10 h11 h12
    h13 h14 h5 h6 h15 h16 h17 h18 h19, d_induced_drag_coeff__atmosphere_static_pressure _ _ _ _ _
    _ _ _ _ h0 h1 h2 h3 h4 h5 h6 h7 h8 h9 h10 h11 h12 h13 h14 h5 h6 h15 h16 h17 h18 h19,
    d_induced_drag_coeff__wing_area _ _ _ _ _ _ _ _ _ h0 h1 h2 h3 h4 h5 h6 h7 h8 h9 h10 h11 h12
    h13 h14 h5 h6 h15 h16 h17 h18 h19⟩

end Verif.Comp.AerodynamicsFlopsBasedInducedDrag.InducedDrag_wingspanefficiencyreduction

namespace Verif.Comp.AerodynamicsFlopsBasedInducedDrag.InducedDrag_no_wingspanefficiencyreduction
open Real

/-- aviary/subsystems/aerodynamics/flops_based/induced_drag.py:70 -/
noncomputable abbrev cl (gamma atmosphere_mach vehicle_lift atmosphere_static_pressure wing_area : ℝ) : ℝ :=
  (2 * vehicle_lift) / (((wing_area * gamma) * atmosphere_static_pressure) * (atmosphere_mach ^
    2))

/-- aviary/subsystems/aerodynamics/flops_based/induced_drag.py:86 -/
noncomputable abbrev span_efficiency (wing_span_efficiency_factor : ℝ) : ℝ :=
  1 + wing_span_efficiency_factor

/-- aviary/subsystems/aerodynamics/flops_based/induced_drag.py:85 -/
noncomputable abbrev span_efficiency_2 (wing_span_efficiency_factor : ℝ) : ℝ :=
  if wing_span_efficiency_factor ≤ (3 / 10) then (span_efficiency wing_span_efficiency_factor)
    else wing_span_efficiency_factor

/-- aviary/subsystems/aerodynamics/flops_based/induced_drag.py:90 -/
noncomputable abbrev cdi (gamma atmosphere_mach vehicle_lift atmosphere_static_pressure wing_area wing_aspect_ratio wing_span_efficiency_factor : ℝ) : ℝ :=
  ((cl gamma atmosphere_mach vehicle_lift atmosphere_static_pressure wing_area) ^ 2) / ((π *
    wing_aspect_ratio) * (span_efficiency_2 wing_span_efficiency_factor))

/-- aviary/subsystems/aerodynamics/flops_based/induced_drag.py:94 -/
noncomputable abbrev deg_to_rad : ℝ := π / 180

/-- aviary/subsystems/aerodynamics/flops_based/induced_drag.py:96 -/
noncomputable abbrev th (wing_aspect_ratio wing_taper_ratio : ℝ) : ℝ :=
  ((1 - wing_taper_ratio) / (1 + wing_taper_ratio)) / wing_aspect_ratio

/-- aviary/subsystems/aerodynamics/flops_based/induced_drag.py:97 -/
noncomputable abbrev tan_sw (wing_sweep : ℝ) : ℝ := tan (wing_sweep / deg_to_rad)

/-- aviary/subsystems/aerodynamics/flops_based/induced_drag.py:98 -/
noncomputable abbrev cosa (wing_aspect_ratio wing_sweep wing_taper_ratio : ℝ) : ℝ :=
  1 / (sqrt (1 + (((tan_sw wing_sweep) - (3 * (th wing_aspect_ratio wing_taper_ratio))) ^ 2)))

/-- aviary/subsystems/aerodynamics/flops_based/induced_drag.py:99 -/
noncomputable abbrev cosb (wing_aspect_ratio wing_sweep wing_taper_ratio : ℝ) : ℝ :=
  1 / (sqrt (1 + (((tan_sw wing_sweep) + (th wing_aspect_ratio wing_taper_ratio)) ^ 2)))

/-- aviary/subsystems/aerodynamics/flops_based/induced_drag.py:100 -/
noncomputable abbrev cayt (atmosphere_mach wing_aspect_ratio wing_sweep wing_taper_ratio : ℝ) : ℝ :=
  (1 / 2) * (((((11 / 10) - ((11 / 100) / ((11 / 10) - (atmosphere_mach * (cosa
    wing_aspect_ratio wing_sweep wing_taper_ratio))))) / ((11 / 10) - ((11 / 100) / ((11 / 10) -
    (atmosphere_mach * (cosb wing_aspect_ratio wing_sweep wing_taper_ratio)))))) - 1) ^ 2)

/-- aviary/subsystems/aerodynamics/flops_based/induced_drag.py:106 -/
noncomputable abbrev cdi_2 (gamma atmosphere_mach vehicle_lift atmosphere_static_pressure wing_area wing_aspect_ratio wing_span_efficiency_factor wing_sweep wing_taper_ratio : ℝ) : ℝ :=
  (cdi gamma atmosphere_mach vehicle_lift atmosphere_static_pressure wing_area wing_aspect_ratio
    wing_span_efficiency_factor) + ((cayt atmosphere_mach wing_aspect_ratio wing_sweep
    wing_taper_ratio) * ((cl gamma atmosphere_mach vehicle_lift atmosphere_static_pressure
    wing_area) ^ 2))

/-- aviary/subsystems/aerodynamics/flops_based/induced_drag.py:93 -/
noncomputable abbrev cdi_3 (gamma atmosphere_mach vehicle_lift atmosphere_static_pressure wing_area wing_aspect_ratio wing_span_efficiency_factor wing_sweep wing_taper_ratio : ℝ) : ℝ :=
  if wing_sweep < 0 then (cdi_2 gamma atmosphere_mach vehicle_lift atmosphere_static_pressure
    wing_area wing_aspect_ratio wing_span_efficiency_factor wing_sweep wing_taper_ratio) else
    (cdi gamma atmosphere_mach vehicle_lift atmosphere_static_pressure wing_area
    wing_aspect_ratio wing_span_efficiency_factor)

/-- aviary/subsystems/aerodynamics/flops_based/induced_drag.py:131 -/
noncomputable abbrev dcl_dl (gamma atmosphere_mach atmosphere_static_pressure wing_area : ℝ) : ℝ :=
  2 / (((wing_area * gamma) * atmosphere_static_pressure) * (atmosphere_mach ^ 2))

/-- aviary/subsystems/aerodynamics/flops_based/induced_drag.py:132 -/
noncomputable abbrev dcl_dsref (gamma atmosphere_mach vehicle_lift atmosphere_static_pressure wing_area : ℝ) : ℝ :=
  ((-2) * vehicle_lift) / ((((wing_area ^ 2) * gamma) * atmosphere_static_pressure) *
    (atmosphere_mach ^ 2))

/-- aviary/subsystems/aerodynamics/flops_based/induced_drag.py:133 -/
noncomputable abbrev dcl_dp (gamma atmosphere_mach vehicle_lift atmosphere_static_pressure wing_area : ℝ) : ℝ :=
  ((-2) * vehicle_lift) / (((wing_area * gamma) * (atmosphere_static_pressure ^ 2)) *
    (atmosphere_mach ^ 2))

/-- aviary/subsystems/aerodynamics/flops_based/induced_drag.py:134 -/
noncomputable abbrev dcl_dmach (gamma atmosphere_mach vehicle_lift atmosphere_static_pressure wing_area : ℝ) : ℝ :=
  ((-4) * vehicle_lift) / (((wing_area * gamma) * atmosphere_static_pressure) * (atmosphere_mach
    ^ 3))

/-- aviary/subsystems/aerodynamics/flops_based/induced_drag.py:136 -/
noncomputable abbrev dcdi_dcl (gamma atmosphere_mach vehicle_lift atmosphere_static_pressure wing_area wing_aspect_ratio wing_span_efficiency_factor : ℝ) : ℝ :=
  (2 * (cl gamma atmosphere_mach vehicle_lift atmosphere_static_pressure wing_area)) / ((π *
    wing_aspect_ratio) * (span_efficiency_2 wing_span_efficiency_factor))

/-- aviary/subsystems/aerodynamics/flops_based/induced_drag.py:137 -/
noncomputable abbrev dcdi_dar (gamma atmosphere_mach vehicle_lift atmosphere_static_pressure wing_area wing_aspect_ratio wing_span_efficiency_factor : ℝ) : ℝ :=
  (-((cl gamma atmosphere_mach vehicle_lift atmosphere_static_pressure wing_area) ^ 2)) / ((π *
    (wing_aspect_ratio ^ 2)) * (span_efficiency_2 wing_span_efficiency_factor))

/-- aviary/subsystems/aerodynamics/flops_based/induced_drag.py:138 -/
noncomputable abbrev dcdi_dspan (gamma atmosphere_mach vehicle_lift atmosphere_static_pressure wing_area wing_aspect_ratio wing_span_efficiency_factor : ℝ) : ℝ :=
  (-((cl gamma atmosphere_mach vehicle_lift atmosphere_static_pressure wing_area) ^ 2)) / ((π *
    wing_aspect_ratio) * ((span_efficiency_2 wing_span_efficiency_factor) ^ 2))

/-- aviary/subsystems/aerodynamics/flops_based/induced_drag.py:170 -/
noncomputable abbrev fact1 (wing_taper_ratio : ℝ) : ℝ := 1 - wing_taper_ratio

/-- aviary/subsystems/aerodynamics/flops_based/induced_drag.py:171 -/
noncomputable abbrev fact2 (wing_taper_ratio : ℝ) : ℝ := 1 / (1 + wing_taper_ratio)

/-- aviary/subsystems/aerodynamics/flops_based/induced_drag.py:172 -/
noncomputable abbrev th_2 (wing_aspect_ratio wing_taper_ratio : ℝ) : ℝ :=
  ((fact1 wing_taper_ratio) * (fact2 wing_taper_ratio)) / wing_aspect_ratio

/-- aviary/subsystems/aerodynamics/flops_based/induced_drag.py:173 -/
noncomputable abbrev dth_dtr (wing_aspect_ratio wing_taper_ratio : ℝ) : ℝ :=
  (-((fact2 wing_taper_ratio) + ((fact1 wing_taper_ratio) * ((fact2 wing_taper_ratio) ^ 2)))) /
    wing_aspect_ratio

/-- aviary/subsystems/aerodynamics/flops_based/induced_drag.py:174 -/
noncomputable abbrev dth_dar (wing_aspect_ratio wing_taper_ratio : ℝ) : ℝ :=
  ((-(fact1 wing_taper_ratio)) * (fact2 wing_taper_ratio)) / (wing_aspect_ratio ^ 2)

/-- aviary/subsystems/aerodynamics/flops_based/induced_drag.py:177 -/
noncomputable abbrev dtansw_dsw (wing_sweep : ℝ) : ℝ :=
  1 / (deg_to_rad * ((cos (wing_sweep / deg_to_rad)) ^ 2))

/-- aviary/subsystems/aerodynamics/flops_based/induced_drag.py:179 -/
noncomputable abbrev fact3 (wing_aspect_ratio wing_sweep wing_taper_ratio : ℝ) : ℝ :=
  1 + (((tan_sw wing_sweep) - (3 * (th_2 wing_aspect_ratio wing_taper_ratio))) ^ 2)

/-- aviary/subsystems/aerodynamics/flops_based/induced_drag.py:180 -/
noncomputable abbrev cosa_2 (wing_aspect_ratio wing_sweep wing_taper_ratio : ℝ) : ℝ :=
  1 / (sqrt (fact3 wing_aspect_ratio wing_sweep wing_taper_ratio))

/-- aviary/subsystems/aerodynamics/flops_based/induced_drag.py:181 -/
noncomputable abbrev dcosa_dtansw (wing_aspect_ratio wing_sweep wing_taper_ratio : ℝ) : ℝ :=
  (((-(1 / 2)) / ((fact3 wing_aspect_ratio wing_sweep wing_taper_ratio) ^ ((3 / 2) : ℝ))) * 2) *
    ((tan_sw wing_sweep) - (3 * (th_2 wing_aspect_ratio wing_taper_ratio)))

/-- aviary/subsystems/aerodynamics/flops_based/induced_drag.py:182 -/
noncomputable abbrev dcosa_dth (wing_aspect_ratio wing_sweep wing_taper_ratio : ℝ) : ℝ :=
  (((1 / 2) / ((fact3 wing_aspect_ratio wing_sweep wing_taper_ratio) ^ ((3 / 2) : ℝ))) * 6) *
    ((tan_sw wing_sweep) - (3 * (th_2 wing_aspect_ratio wing_taper_ratio)))

/-- aviary/subsystems/aerodynamics/flops_based/induced_drag.py:184 -/
noncomputable abbrev fact4 (wing_aspect_ratio wing_sweep wing_taper_ratio : ℝ) : ℝ :=
  1 + (((tan_sw wing_sweep) + (th_2 wing_aspect_ratio wing_taper_ratio)) ^ 2)

/-- aviary/subsystems/aerodynamics/flops_based/induced_drag.py:185 -/
noncomputable abbrev cosb_2 (wing_aspect_ratio wing_sweep wing_taper_ratio : ℝ) : ℝ :=
  1 / (sqrt (fact4 wing_aspect_ratio wing_sweep wing_taper_ratio))

/-- aviary/subsystems/aerodynamics/flops_based/induced_drag.py:186 -/
noncomputable abbrev dcosb_dtansw (wing_aspect_ratio wing_sweep wing_taper_ratio : ℝ) : ℝ :=
  (((-(1 / 2)) / ((fact4 wing_aspect_ratio wing_sweep wing_taper_ratio) ^ ((3 / 2) : ℝ))) * 2) *
    ((tan_sw wing_sweep) + (th_2 wing_aspect_ratio wing_taper_ratio))

/-- aviary/subsystems/aerodynamics/flops_based/induced_drag.py:187 -/
noncomputable abbrev dcosb_dth (wing_aspect_ratio wing_sweep wing_taper_ratio : ℝ) : ℝ :=
  (((-(1 / 2)) / ((fact4 wing_aspect_ratio wing_sweep wing_taper_ratio) ^ ((3 / 2) : ℝ))) * 2) *
    ((tan_sw wing_sweep) + (th_2 wing_aspect_ratio wing_taper_ratio))

/-- aviary/subsystems/aerodynamics/flops_based/induced_drag.py:189 -/
noncomputable abbrev facta (atmosphere_mach wing_aspect_ratio wing_sweep wing_taper_ratio : ℝ) : ℝ :=
  (11 / 10) - (atmosphere_mach * (cosa_2 wing_aspect_ratio wing_sweep wing_taper_ratio))

/-- aviary/subsystems/aerodynamics/flops_based/induced_drag.py:190 -/
noncomputable abbrev factb (atmosphere_mach wing_aspect_ratio wing_sweep wing_taper_ratio : ℝ) : ℝ :=
  (11 / 10) - (atmosphere_mach * (cosb_2 wing_aspect_ratio wing_sweep wing_taper_ratio))

/-- aviary/subsystems/aerodynamics/flops_based/induced_drag.py:191 -/
noncomputable abbrev fact5 (atmosphere_mach wing_aspect_ratio wing_sweep wing_taper_ratio : ℝ) : ℝ :=
  (11 / 10) - ((11 / 100) / (facta atmosphere_mach wing_aspect_ratio wing_sweep
    wing_taper_ratio))

/-- aviary/subsystems/aerodynamics/flops_based/induced_drag.py:192 -/
noncomputable abbrev fact6 (atmosphere_mach wing_aspect_ratio wing_sweep wing_taper_ratio : ℝ) : ℝ :=
  (11 / 10) - ((11 / 100) / (factb atmosphere_mach wing_aspect_ratio wing_sweep
    wing_taper_ratio))

/-- aviary/subsystems/aerodynamics/flops_based/induced_drag.py:193 -/
noncomputable abbrev cayt_2 (atmosphere_mach wing_aspect_ratio wing_sweep wing_taper_ratio : ℝ) : ℝ :=
  (1 / 2) * ((((fact5 atmosphere_mach wing_aspect_ratio wing_sweep wing_taper_ratio) / (fact6
    atmosphere_mach wing_aspect_ratio wing_sweep wing_taper_ratio)) - 1) ^ 2)

/-- aviary/subsystems/aerodynamics/flops_based/induced_drag.py:194 -/
noncomputable abbrev dcayt_dmach (atmosphere_mach wing_aspect_ratio wing_sweep wing_taper_ratio : ℝ) : ℝ :=
  (((fact5 atmosphere_mach wing_aspect_ratio wing_sweep wing_taper_ratio) / (fact6
    atmosphere_mach wing_aspect_ratio wing_sweep wing_taper_ratio)) - 1) * ((((-(11 / 100)) *
    (cosa_2 wing_aspect_ratio wing_sweep wing_taper_ratio)) / ((fact6 atmosphere_mach
    wing_aspect_ratio wing_sweep wing_taper_ratio) * ((facta atmosphere_mach wing_aspect_ratio
    wing_sweep wing_taper_ratio) ^ 2))) + ((((11 / 100) * (fact5 atmosphere_mach
    wing_aspect_ratio wing_sweep wing_taper_ratio)) * (cosb_2 wing_aspect_ratio wing_sweep
    wing_taper_ratio)) / (((factb atmosphere_mach wing_aspect_ratio wing_sweep wing_taper_ratio)
    ^ 2) * ((fact6 atmosphere_mach wing_aspect_ratio wing_sweep wing_taper_ratio) ^ 2))))

/-- aviary/subsystems/aerodynamics/flops_based/induced_drag.py:197 -/
noncomputable abbrev dcayt_dcosa (atmosphere_mach wing_aspect_ratio wing_sweep wing_taper_ratio : ℝ) : ℝ :=
  (((fact5 atmosphere_mach wing_aspect_ratio wing_sweep wing_taper_ratio) / (fact6
    atmosphere_mach wing_aspect_ratio wing_sweep wing_taper_ratio)) - 1) * (((-(11 / 100)) *
    atmosphere_mach) / ((fact6 atmosphere_mach wing_aspect_ratio wing_sweep wing_taper_ratio) *
    ((facta atmosphere_mach wing_aspect_ratio wing_sweep wing_taper_ratio) ^ 2)))

/-- aviary/subsystems/aerodynamics/flops_based/induced_drag.py:198 -/
noncomputable abbrev dcayt_dcosb (atmosphere_mach wing_aspect_ratio wing_sweep wing_taper_ratio : ℝ) : ℝ :=
  (((fact5 atmosphere_mach wing_aspect_ratio wing_sweep wing_taper_ratio) / (fact6
    atmosphere_mach wing_aspect_ratio wing_sweep wing_taper_ratio)) - 1) * ((((11 / 100) *
    (fact5 atmosphere_mach wing_aspect_ratio wing_sweep wing_taper_ratio)) * atmosphere_mach) /
    (((factb atmosphere_mach wing_aspect_ratio wing_sweep wing_taper_ratio) ^ 2) * ((fact6
    atmosphere_mach wing_aspect_ratio wing_sweep wing_taper_ratio) ^ 2)))

/-- aviary/subsystems/aerodynamics/flops_based/induced_drag.py:200 -/
noncomputable abbrev dcdi_dcayt (gamma atmosphere_mach vehicle_lift atmosphere_static_pressure wing_area : ℝ) : ℝ :=
  (cl gamma atmosphere_mach vehicle_lift atmosphere_static_pressure wing_area) ^ 2

/-- aviary/subsystems/aerodynamics/flops_based/induced_drag.py:201 -/
noncomputable abbrev dcdi_dcl_2 (gamma atmosphere_mach vehicle_lift atmosphere_static_pressure wing_area wing_aspect_ratio wing_sweep wing_taper_ratio : ℝ) : ℝ :=
  (2 * (cayt_2 atmosphere_mach wing_aspect_ratio wing_sweep wing_taper_ratio)) * (cl gamma
    atmosphere_mach vehicle_lift atmosphere_static_pressure wing_area)

/-- Output `induced_drag_coeff` of `InducedDrag.compute`, aviary/subsystems/aerodynamics/flops_based/induced_drag.py:108 -/
noncomputable def out_induced_drag_coeff (gamma atmosphere_mach vehicle_lift atmosphere_static_pressure wing_area wing_aspect_ratio wing_span_efficiency_factor wing_sweep wing_taper_ratio : ℝ) : ℝ :=
  cdi_3 gamma atmosphere_mach vehicle_lift atmosphere_static_pressure wing_area
    wing_aspect_ratio wing_span_efficiency_factor wing_sweep wing_taper_ratio

/-- Partial of `induced_drag_coeff` with respect to `atmosphere_mach` as set by `InducedDrag`, aviary/subsystems/aerodynamics/flops_based/induced_drag.py:203 -/
noncomputable def J_induced_drag_coeff__atmosphere_mach (gamma atmosphere_mach vehicle_lift atmosphere_static_pressure wing_area wing_aspect_ratio wing_span_efficiency_factor wing_sweep wing_taper_ratio : ℝ) : ℝ :=
  if wing_sweep < 0 then (((dcdi_dcl gamma atmosphere_mach vehicle_lift
    atmosphere_static_pressure wing_area wing_aspect_ratio wing_span_efficiency_factor) *
    (dcl_dmach gamma atmosphere_mach vehicle_lift atmosphere_static_pressure wing_area)) +
    (((dcdi_dcl_2 gamma atmosphere_mach vehicle_lift atmosphere_static_pressure wing_area
    wing_aspect_ratio wing_sweep wing_taper_ratio) * (dcl_dmach gamma atmosphere_mach
    vehicle_lift atmosphere_static_pressure wing_area)) + ((dcdi_dcayt gamma atmosphere_mach
    vehicle_lift atmosphere_static_pressure wing_area) * (dcayt_dmach atmosphere_mach
    wing_aspect_ratio wing_sweep wing_taper_ratio)))) else ((dcdi_dcl gamma atmosphere_mach
    vehicle_lift atmosphere_static_pressure wing_area wing_aspect_ratio
    wing_span_efficiency_factor) * (dcl_dmach gamma atmosphere_mach vehicle_lift
    atmosphere_static_pressure wing_area))

/-- Partial of `induced_drag_coeff` with respect to `vehicle_lift` as set by `InducedDrag`, aviary/subsystems/aerodynamics/flops_based/induced_drag.py:206 -/
noncomputable def J_induced_drag_coeff__vehicle_lift (gamma atmosphere_mach vehicle_lift atmosphere_static_pressure wing_area wing_aspect_ratio wing_span_efficiency_factor wing_sweep wing_taper_ratio : ℝ) : ℝ :=
  if wing_sweep < 0 then (((dcdi_dcl gamma atmosphere_mach vehicle_lift
    atmosphere_static_pressure wing_area wing_aspect_ratio wing_span_efficiency_factor) *
    (dcl_dl gamma atmosphere_mach atmosphere_static_pressure wing_area)) + ((dcdi_dcl_2 gamma
    atmosphere_mach vehicle_lift atmosphere_static_pressure wing_area wing_aspect_ratio
    wing_sweep wing_taper_ratio) * (dcl_dl gamma atmosphere_mach atmosphere_static_pressure
    wing_area))) else ((dcdi_dcl gamma atmosphere_mach vehicle_lift atmosphere_static_pressure
    wing_area wing_aspect_ratio wing_span_efficiency_factor) * (dcl_dl gamma atmosphere_mach
    atmosphere_static_pressure wing_area))

/-- Partial of `induced_drag_coeff` with respect to `atmosphere_static_pressure` as set by `InducedDrag`, aviary/subsystems/aerodynamics/flops_based/induced_drag.py:213 -/
noncomputable def J_induced_drag_coeff__atmosphere_static_pressure (gamma atmosphere_mach vehicle_lift atmosphere_static_pressure wing_area wing_aspect_ratio wing_span_efficiency_factor wing_sweep wing_taper_ratio : ℝ) : ℝ :=
  if wing_sweep < 0 then (((dcdi_dcl gamma atmosphere_mach vehicle_lift
    atmosphere_static_pressure wing_area wing_aspect_ratio wing_span_efficiency_factor) *
    (dcl_dp gamma atmosphere_mach vehicle_lift atmosphere_static_pressure wing_area)) +
    ((dcdi_dcl_2 gamma atmosphere_mach vehicle_lift atmosphere_static_pressure wing_area
    wing_aspect_ratio wing_sweep wing_taper_ratio) * (dcl_dp gamma atmosphere_mach vehicle_lift
    atmosphere_static_pressure wing_area))) else ((dcdi_dcl gamma atmosphere_mach vehicle_lift
    atmosphere_static_pressure wing_area wing_aspect_ratio wing_span_efficiency_factor) *
    (dcl_dp gamma atmosphere_mach vehicle_lift atmosphere_static_pressure wing_area))

/-- Partial of `induced_drag_coeff` with respect to `wing_aspect_ratio` as set by `InducedDrag`, aviary/subsystems/aerodynamics/flops_based/induced_drag.py:207 -/
noncomputable def J_induced_drag_coeff__wing_aspect_ratio (gamma atmosphere_mach vehicle_lift atmosphere_static_pressure wing_area wing_aspect_ratio wing_span_efficiency_factor wing_sweep wing_taper_ratio : ℝ) : ℝ :=
  if wing_sweep < 0 then ((dcdi_dar gamma atmosphere_mach vehicle_lift
    atmosphere_static_pressure wing_area wing_aspect_ratio wing_span_efficiency_factor) +
    (((dcdi_dcayt gamma atmosphere_mach vehicle_lift atmosphere_static_pressure wing_area) *
    (dth_dar wing_aspect_ratio wing_taper_ratio)) * (((dcayt_dcosa atmosphere_mach
    wing_aspect_ratio wing_sweep wing_taper_ratio) * (dcosa_dth wing_aspect_ratio wing_sweep
    wing_taper_ratio)) + ((dcayt_dcosb atmosphere_mach wing_aspect_ratio wing_sweep
    wing_taper_ratio) * (dcosb_dth wing_aspect_ratio wing_sweep wing_taper_ratio))))) else
    (dcdi_dar gamma atmosphere_mach vehicle_lift atmosphere_static_pressure wing_area
    wing_aspect_ratio wing_span_efficiency_factor)

/-- Partial of `induced_drag_coeff` with respect to `wing_span_efficiency_factor` as set by `InducedDrag`, aviary/subsystems/aerodynamics/flops_based/induced_drag.py:155 -/
noncomputable def J_induced_drag_coeff__wing_span_efficiency_factor (gamma atmosphere_mach vehicle_lift atmosphere_static_pressure wing_area wing_aspect_ratio wing_span_efficiency_factor : ℝ) : ℝ :=
  dcdi_dspan gamma atmosphere_mach vehicle_lift atmosphere_static_pressure wing_area
    wing_aspect_ratio wing_span_efficiency_factor

/-- Partial of `induced_drag_coeff` with respect to `wing_sweep` as set by `InducedDrag`, aviary/subsystems/aerodynamics/flops_based/induced_drag.py:210 -/
noncomputable def J_induced_drag_coeff__wing_sweep (gamma atmosphere_mach vehicle_lift atmosphere_static_pressure wing_area wing_aspect_ratio wing_sweep wing_taper_ratio : ℝ) : ℝ :=
  if wing_sweep < 0 then (0 + (((dcdi_dcayt gamma atmosphere_mach vehicle_lift
    atmosphere_static_pressure wing_area) * (dtansw_dsw wing_sweep)) * (((dcayt_dcosa
    atmosphere_mach wing_aspect_ratio wing_sweep wing_taper_ratio) * (dcosa_dtansw
    wing_aspect_ratio wing_sweep wing_taper_ratio)) + ((dcayt_dcosb atmosphere_mach
    wing_aspect_ratio wing_sweep wing_taper_ratio) * (dcosb_dtansw wing_aspect_ratio wing_sweep
    wing_taper_ratio))))) else 0

/-- Partial of `induced_drag_coeff` with respect to `wing_taper_ratio` as set by `InducedDrag`, aviary/subsystems/aerodynamics/flops_based/induced_drag.py:214 -/
noncomputable def J_induced_drag_coeff__wing_taper_ratio (gamma atmosphere_mach vehicle_lift atmosphere_static_pressure wing_area wing_aspect_ratio wing_sweep wing_taper_ratio : ℝ) : ℝ :=
  if wing_sweep < 0 then (0 + (((dcdi_dcayt gamma atmosphere_mach vehicle_lift
    atmosphere_static_pressure wing_area) * (dth_dtr wing_aspect_ratio wing_taper_ratio)) *
    (((dcayt_dcosa atmosphere_mach wing_aspect_ratio wing_sweep wing_taper_ratio) * (dcosa_dth
    wing_aspect_ratio wing_sweep wing_taper_ratio)) + ((dcayt_dcosb atmosphere_mach
    wing_aspect_ratio wing_sweep wing_taper_ratio) * (dcosb_dth wing_aspect_ratio wing_sweep
    wing_taper_ratio))))) else 0

/-- Partial of `induced_drag_coeff` with respect to `wing_area` as set by `InducedDrag`, aviary/subsystems/aerodynamics/flops_based/induced_drag.py:217 -/
noncomputable def J_induced_drag_coeff__wing_area (gamma atmosphere_mach vehicle_lift atmosphere_static_pressure wing_area wing_aspect_ratio wing_span_efficiency_factor wing_sweep wing_taper_ratio : ℝ) : ℝ :=
  if wing_sweep < 0 then (((dcdi_dcl gamma atmosphere_mach vehicle_lift
    atmosphere_static_pressure wing_area wing_aspect_ratio wing_span_efficiency_factor) *
    (dcl_dsref gamma atmosphere_mach vehicle_lift atmosphere_static_pressure wing_area)) +
    ((dcdi_dcl_2 gamma atmosphere_mach vehicle_lift atmosphere_static_pressure wing_area
    wing_aspect_ratio wing_sweep wing_taper_ratio) * (dcl_dsref gamma atmosphere_mach
    vehicle_lift atmosphere_static_pressure wing_area))) else ((dcdi_dcl gamma atmosphere_mach
    vehicle_lift atmosphere_static_pressure wing_area wing_aspect_ratio
    wing_span_efficiency_factor) * (dcl_dsref gamma atmosphere_mach vehicle_lift
    atmosphere_static_pressure wing_area))

theorem d_induced_drag_coeff__vehicle_lift (gamma atmosphere_mach vehicle_lift
    atmosphere_static_pressure wing_area wing_aspect_ratio wing_span_efficiency_factor wing_sweep
    wing_taper_ratio : ℝ) (h0 : 0 < wing_area) (h1 : 0 < gamma) (h2 : 0 <
    atmosphere_static_pressure) (h3 : 0 < atmosphere_mach) (h4 : 0 < wing_aspect_ratio) (h5 : 0 <
    wing_span_efficiency_factor) (h6 : cos (wing_sweep / (π / 180)) ≠ 0) (h7 : 0 <
    wing_taper_ratio) (h8 : (tan (wing_sweep / (π / 180))) - (3 * (((1 - wing_taper_ratio) / (1 +
    wing_taper_ratio)) / wing_aspect_ratio)) ≠ 0) (h9 : (11 / 10) - (atmosphere_mach * (1 / (sqrt
    (1 + (((tan (wing_sweep / (π / 180))) - (3 * (((1 - wing_taper_ratio) / (1 +
    wing_taper_ratio)) / wing_aspect_ratio))) ^ 2))))) ≠ 0) (h10 : (tan (wing_sweep / (π / 180)))
    + (((1 - wing_taper_ratio) / (1 + wing_taper_ratio)) / wing_aspect_ratio) ≠ 0) (h11 : (11 /
    10) - (atmosphere_mach * (1 / (sqrt (1 + (((tan (wing_sweep / (π / 180))) + (((1 -
    wing_taper_ratio) / (1 + wing_taper_ratio)) / wing_aspect_ratio)) ^ 2))))) ≠ 0) (h12 : (11 /
    10) - ((11 / 100) / ((11 / 10) - (atmosphere_mach * (1 / (sqrt (1 + (((tan (wing_sweep / (π /
    180))) + (((1 - wing_taper_ratio) / (1 + wing_taper_ratio)) / wing_aspect_ratio)) ^ 2))))))) ≠
    0) (h13 : (tan (wing_sweep / (π / 180))) - (3 * (((1 - wing_taper_ratio) * (1 / (1 +
    wing_taper_ratio))) / wing_aspect_ratio)) ≠ 0) (h14 : (11 / 10) - (atmosphere_mach * (1 /
    (sqrt (1 + (((tan (wing_sweep / (π / 180))) - (3 * (((1 - wing_taper_ratio) * (1 / (1 +
    wing_taper_ratio))) / wing_aspect_ratio))) ^ 2))))) ≠ 0) (h15 : (tan (wing_sweep / (π / 180)))
    + (((1 - wing_taper_ratio) * (1 / (1 + wing_taper_ratio))) / wing_aspect_ratio) ≠ 0) (h16 :
    (11 / 10) - (atmosphere_mach * (1 / (sqrt (1 + (((tan (wing_sweep / (π / 180))) + (((1 -
    wing_taper_ratio) * (1 / (1 + wing_taper_ratio))) / wing_aspect_ratio)) ^ 2))))) ≠ 0) (h17 :
    (11 / 10) - ((11 / 100) / ((11 / 10) - (atmosphere_mach * (1 / (sqrt (1 + (((tan (wing_sweep /
    (π / 180))) + (((1 - wing_taper_ratio) * (1 / (1 + wing_taper_ratio))) / wing_aspect_ratio)) ^
    2))))))) ≠ 0) :
    HasDerivAt (fun t => out_induced_drag_coeff gamma atmosphere_mach t atmosphere_static_pressure wing_area wing_aspect_ratio wing_span_efficiency_factor wing_sweep wing_taper_ratio) (J_induced_drag_coeff__vehicle_lift gamma atmosphere_mach vehicle_lift atmosphere_static_pressure wing_area wing_aspect_ratio wing_span_efficiency_factor wing_sweep wing_taper_ratio) vehicle_lift := by
  simp only [out_induced_drag_coeff, J_induced_drag_coeff__vehicle_lift, dcdi_dcl_2, cayt_2, fact6, factb, cosb_2, fact4, fact5, facta, cosa_2, fact3, th_2, fact2, fact1, dcl_dl, dcdi_dcl, cdi_3, cdi_2, cayt, cosb, cosa, th, tan_sw, deg_to_rad, cdi, span_efficiency_2, span_efficiency, cl, sqrt_eq_rpow]
  try split_ifs
  all_goals (apply hasDerivAt_of_eq; on_goal 1 => (repeat' comp_step))
  all_goals try comp_side
  all_goals try simp (disch := first | assumption | positivity) only [div_mul_eq_div_div, div_half, inv_half]
  all_goals try split_ifs
  all_goals try (exfalso; linarith)
  all_goals try simp only [mul_zero, zero_mul, add_zero, zero_add, sub_zero, zero_sub, mul_one, one_mul]
  all_goals try push_cast
  all_goals comp_eq

theorem d_induced_drag_coeff__atmosphere_static_pressure (gamma atmosphere_mach vehicle_lift
    atmosphere_static_pressure wing_area wing_aspect_ratio wing_span_efficiency_factor wing_sweep
    wing_taper_ratio : ℝ) (h0 : 0 < wing_area) (h1 : 0 < gamma) (h2 : 0 <
    atmosphere_static_pressure) (h3 : 0 < atmosphere_mach) (h4 : 0 < wing_aspect_ratio) (h5 : 0 <
    wing_span_efficiency_factor) (h6 : cos (wing_sweep / (π / 180)) ≠ 0) (h7 : 0 <
    wing_taper_ratio) (h8 : (tan (wing_sweep / (π / 180))) - (3 * (((1 - wing_taper_ratio) / (1 +
    wing_taper_ratio)) / wing_aspect_ratio)) ≠ 0) (h9 : (11 / 10) - (atmosphere_mach * (1 / (sqrt
    (1 + (((tan (wing_sweep / (π / 180))) - (3 * (((1 - wing_taper_ratio) / (1 +
    wing_taper_ratio)) / wing_aspect_ratio))) ^ 2))))) ≠ 0) (h10 : (tan (wing_sweep / (π / 180)))
    + (((1 - wing_taper_ratio) / (1 + wing_taper_ratio)) / wing_aspect_ratio) ≠ 0) (h11 : (11 /
    10) - (atmosphere_mach * (1 / (sqrt (1 + (((tan (wing_sweep / (π / 180))) + (((1 -
    wing_taper_ratio) / (1 + wing_taper_ratio)) / wing_aspect_ratio)) ^ 2))))) ≠ 0) (h12 : (11 /
    10) - ((11 / 100) / ((11 / 10) - (atmosphere_mach * (1 / (sqrt (1 + (((tan (wing_sweep / (π /
    180))) + (((1 - wing_taper_ratio) / (1 + wing_taper_ratio)) / wing_aspect_ratio)) ^ 2))))))) ≠
    0) (h13 : (tan (wing_sweep / (π / 180))) - (3 * (((1 - wing_taper_ratio) * (1 / (1 +
    wing_taper_ratio))) / wing_aspect_ratio)) ≠ 0) (h14 : (11 / 10) - (atmosphere_mach * (1 /
    (sqrt (1 + (((tan (wing_sweep / (π / 180))) - (3 * (((1 - wing_taper_ratio) * (1 / (1 +
    wing_taper_ratio))) / wing_aspect_ratio))) ^ 2))))) ≠ 0) (h15 : (tan (wing_sweep / (π / 180)))
    + (((1 - wing_taper_ratio) * (1 / (1 + wing_taper_ratio))) / wing_aspect_ratio) ≠ 0) (h16 :
    (11 / 10) - (atmosphere_mach * (1 / (sqrt (1 + (((tan (wing_sweep / (π / 180))) + (((1 -
    wing_taper_ratio) * (1 / (1 + wing_taper_ratio))) / wing_aspect_ratio)) ^ 2))))) ≠ 0) (h17 :
    (11 / 10) - ((11 / 100) / ((11 / 10) - (atmosphere_mach * (1 / (sqrt (1 + (((tan (wing_sweep /
    (π / 180))) + (((1 - wing_taper_ratio) * (1 / (1 + wing_taper_ratio))) / wing_aspect_ratio)) ^
    2))))))) ≠ 0) :
    HasDerivAt (fun t => out_induced_drag_coeff gamma atmosphere_mach vehicle_lift t wing_area wing_aspect_ratio wing_span_efficiency_factor wing_sweep wing_taper_ratio) (J_induced_drag_coeff__atmosphere_static_pressure gamma atmosphere_mach vehicle_lift atmosphere_static_pressure wing_area wing_aspect_ratio wing_span_efficiency_factor wing_sweep wing_taper_ratio) atmosphere_static_pressure := by
  simp only [out_induced_drag_coeff, J_induced_drag_coeff__atmosphere_static_pressure, dcdi_dcl_2, cayt_2, fact6, factb, cosb_2, fact4, fact5, facta, cosa_2, fact3, th_2, fact2, fact1, dcl_dp, dcdi_dcl, cdi_3, cdi_2, cayt, cosb, cosa, th, tan_sw, deg_to_rad, cdi, span_efficiency_2, span_efficiency, cl, sqrt_eq_rpow]
  try split_ifs
  all_goals (apply hasDerivAt_of_eq; on_goal 1 => (repeat' comp_step))
  all_goals try comp_side
  all_goals try simp (disch := first | assumption | positivity) only [div_mul_eq_div_div, div_half, inv_half]
  all_goals try split_ifs
  all_goals try (exfalso; linarith)
  all_goals try simp only [mul_zero, zero_mul, add_zero, zero_add, sub_zero, zero_sub, mul_one, one_mul]
  all_goals try push_cast
  all_goals comp_eq

theorem d_induced_drag_coeff__wing_area (gamma atmosphere_mach vehicle_lift
    atmosphere_static_pressure wing_area wing_aspect_ratio wing_span_efficiency_factor wing_sweep
    wing_taper_ratio : ℝ) (h0 : 0 < wing_area) (h1 : 0 < gamma) (h2 : 0 <
    atmosphere_static_pressure) (h3 : 0 < atmosphere_mach) (h4 : 0 < wing_aspect_ratio) (h5 : 0 <
    wing_span_efficiency_factor) (h6 : cos (wing_sweep / (π / 180)) ≠ 0) (h7 : 0 <
    wing_taper_ratio) (h8 : (tan (wing_sweep / (π / 180))) - (3 * (((1 - wing_taper_ratio) / (1 +
    wing_taper_ratio)) / wing_aspect_ratio)) ≠ 0) (h9 : (11 / 10) - (atmosphere_mach * (1 / (sqrt
    (1 + (((tan (wing_sweep / (π / 180))) - (3 * (((1 - wing_taper_ratio) / (1 +
    wing_taper_ratio)) / wing_aspect_ratio))) ^ 2))))) ≠ 0) (h10 : (tan (wing_sweep / (π / 180)))
    + (((1 - wing_taper_ratio) / (1 + wing_taper_ratio)) / wing_aspect_ratio) ≠ 0) (h11 : (11 /
    10) - (atmosphere_mach * (1 / (sqrt (1 + (((tan (wing_sweep / (π / 180))) + (((1 -
    wing_taper_ratio) / (1 + wing_taper_ratio)) / wing_aspect_ratio)) ^ 2))))) ≠ 0) (h12 : (11 /
    10) - ((11 / 100) / ((11 / 10) - (atmosphere_mach * (1 / (sqrt (1 + (((tan (wing_sweep / (π /
    180))) + (((1 - wing_taper_ratio) / (1 + wing_taper_ratio)) / wing_aspect_ratio)) ^ 2))))))) ≠
    0) (h13 : (tan (wing_sweep / (π / 180))) - (3 * (((1 - wing_taper_ratio) * (1 / (1 +
    wing_taper_ratio))) / wing_aspect_ratio)) ≠ 0) (h14 : (11 / 10) - (atmosphere_mach * (1 /
    (sqrt (1 + (((tan (wing_sweep / (π / 180))) - (3 * (((1 - wing_taper_ratio) * (1 / (1 +
    wing_taper_ratio))) / wing_aspect_ratio))) ^ 2))))) ≠ 0) (h15 : (tan (wing_sweep / (π / 180)))
    + (((1 - wing_taper_ratio) * (1 / (1 + wing_taper_ratio))) / wing_aspect_ratio) ≠ 0) (h16 :
    (11 / 10) - (atmosphere_mach * (1 / (sqrt (1 + (((tan (wing_sweep / (π / 180))) + (((1 -
    wing_taper_ratio) * (1 / (1 + wing_taper_ratio))) / wing_aspect_ratio)) ^ 2))))) ≠ 0) (h17 :
    (11 / 10) - ((11 / 100) / ((11 / 10) - (atmosphere_mach * (1 / (sqrt (1 + (((tan (wing_sweep /
    (π / 180))) + (((1 - wing_taper_ratio) * (1 / (1 + wing_taper_ratio))) / wing_aspect_ratio)) ^
    2))))))) ≠ 0) :
    HasDerivAt (fun t => out_induced_drag_coeff gamma atmosphere_mach vehicle_lift atmosphere_static_pressure t wing_aspect_ratio wing_span_efficiency_factor wing_sweep wing_taper_ratio) (J_induced_drag_coeff__wing_area gamma atmosphere_mach vehicle_lift atmosphere_static_pressure wing_area wing_aspect_ratio wing_span_efficiency_factor wing_sweep wing_taper_ratio) wing_area := by
  simp only [out_induced_drag_coeff, J_induced_drag_coeff__wing_area, dcdi_dcl_2, cayt_2, fact6, factb, cosb_2, fact4, fact5, facta, cosa_2, fact3, th_2, fact2, fact1, dcl_dsref, dcdi_dcl, cdi_3, cdi_2, cayt, cosb, cosa, th, tan_sw, deg_to_rad, cdi, span_efficiency_2, span_efficiency, cl, sqrt_eq_rpow]
  try split_ifs
  all_goals (apply hasDerivAt_of_eq; on_goal 1 => (repeat' comp_step))
  all_goals try comp_side
  all_goals try simp (disch := first | assumption | positivity) only [div_mul_eq_div_div, div_half, inv_half]
  all_goals try split_ifs
  all_goals try (exfalso; linarith)
  all_goals try simp only [mul_zero, zero_mul, add_zero, zero_add, sub_zero, zero_sub, mul_one, one_mul]
  all_goals try push_cast
  all_goals comp_eq

theorem d_induced_drag_coeff__wing_span_efficiency_factor (gamma atmosphere_mach vehicle_lift
    atmosphere_static_pressure wing_area wing_aspect_ratio wing_span_efficiency_factor wing_sweep
    wing_taper_ratio : ℝ) (h0 : 0 < wing_area) (h1 : 0 < gamma) (h2 : 0 <
    atmosphere_static_pressure) (h3 : 0 < atmosphere_mach) (h4 : wing_span_efficiency_factor ≠ 3 /
    10) (h5 : 0 < wing_aspect_ratio) (h6 : 0 < wing_span_efficiency_factor) (h7 : cos (wing_sweep
    / (π / 180)) ≠ 0) (h8 : 0 < wing_taper_ratio) (h9 : (tan (wing_sweep / (π / 180))) - (3 * (((1
    - wing_taper_ratio) / (1 + wing_taper_ratio)) / wing_aspect_ratio)) ≠ 0) (h10 : (11 / 10) -
    (atmosphere_mach * (1 / (sqrt (1 + (((tan (wing_sweep / (π / 180))) - (3 * (((1 -
    wing_taper_ratio) / (1 + wing_taper_ratio)) / wing_aspect_ratio))) ^ 2))))) ≠ 0) (h11 : (tan
    (wing_sweep / (π / 180))) + (((1 - wing_taper_ratio) / (1 + wing_taper_ratio)) /
    wing_aspect_ratio) ≠ 0) (h12 : (11 / 10) - (atmosphere_mach * (1 / (sqrt (1 + (((tan
    (wing_sweep / (π / 180))) + (((1 - wing_taper_ratio) / (1 + wing_taper_ratio)) /
    wing_aspect_ratio)) ^ 2))))) ≠ 0) (h13 : (11 / 10) - ((11 / 100) / ((11 / 10) -
    (atmosphere_mach * (1 / (sqrt (1 + (((tan (wing_sweep / (π / 180))) + (((1 - wing_taper_ratio)
    / (1 + wing_taper_ratio)) / wing_aspect_ratio)) ^ 2))))))) ≠ 0) :
    HasDerivAt (fun t => out_induced_drag_coeff gamma atmosphere_mach vehicle_lift atmosphere_static_pressure wing_area wing_aspect_ratio t wing_sweep wing_taper_ratio) (J_induced_drag_coeff__wing_span_efficiency_factor gamma atmosphere_mach vehicle_lift atmosphere_static_pressure wing_area wing_aspect_ratio wing_span_efficiency_factor) wing_span_efficiency_factor := by
  simp only [out_induced_drag_coeff, J_induced_drag_coeff__wing_span_efficiency_factor, dcdi_dspan, cdi_3, cdi_2, cayt, cosb, cosa, th, tan_sw, deg_to_rad, cdi, span_efficiency_2, span_efficiency, cl, sqrt_eq_rpow]
  try split_ifs
  all_goals (apply hasDerivAt_of_eq; on_goal 1 => (repeat' comp_step))
  all_goals try comp_side
  all_goals try simp (disch := first | assumption | positivity) only [div_mul_eq_div_div, div_half, inv_half]
  all_goals try split_ifs
  all_goals try (exfalso; linarith)
  all_goals try simp only [mul_zero, zero_mul, add_zero, zero_add, sub_zero, zero_sub, mul_one, one_mul]
  all_goals try push_cast
  all_goals comp_eq

/-- Partial derivatives of `InducedDrag` that are proved correct (the rest is listed in the header). -/
theorem partials_partial (gamma atmosphere_mach vehicle_lift atmosphere_static_pressure wing_area
    wing_aspect_ratio wing_span_efficiency_factor wing_sweep wing_taper_ratio : ℝ) (h0 : 0 <
    wing_area) (h1 : 0 < gamma) (h2 : 0 < atmosphere_static_pressure) (h3 : 0 < atmosphere_mach)
    (h4 : 0 < wing_aspect_ratio) (h5 : 0 < wing_span_efficiency_factor) (h6 : cos (wing_sweep / (π
    / 180)) ≠ 0) (h7 : 0 < wing_taper_ratio) (h8 : (tan (wing_sweep / (π / 180))) - (3 * (((1 -
    wing_taper_ratio) / (1 + wing_taper_ratio)) / wing_aspect_ratio)) ≠ 0) (h9 : (11 / 10) -
    (atmosphere_mach * (1 / (sqrt (1 + (((tan (wing_sweep / (π / 180))) - (3 * (((1 -
    wing_taper_ratio) / (1 + wing_taper_ratio)) / wing_aspect_ratio))) ^ 2))))) ≠ 0) (h10 : (tan
    (wing_sweep / (π / 180))) + (((1 - wing_taper_ratio) / (1 + wing_taper_ratio)) /
    wing_aspect_ratio) ≠ 0) (h11 : (11 / 10) - (atmosphere_mach * (1 / (sqrt (1 + (((tan
    (wing_sweep / (π / 180))) + (((1 - wing_taper_ratio) / (1 + wing_taper_ratio)) /
    wing_aspect_ratio)) ^ 2))))) ≠ 0) (h12 : (11 / 10) - ((11 / 100) / ((11 / 10) -
    (atmosphere_mach * (1 / (sqrt (1 + (((tan (wing_sweep / (π / 180))) + (((1 - wing_taper_ratio)
    / (1 + wing_taper_ratio)) / wing_aspect_ratio)) ^ 2))))))) ≠ 0) (h13 : (tan (wing_sweep / (π /
    180))) - (3 * (((1 - wing_taper_ratio) * (1 / (1 + wing_taper_ratio))) / wing_aspect_ratio)) ≠
    0) (h14 : (11 / 10) - (atmosphere_mach * (1 / (sqrt (1 + (((tan (wing_sweep / (π / 180))) - (3
    * (((1 - wing_taper_ratio) * (1 / (1 + wing_taper_ratio))) / wing_aspect_ratio))) ^ 2))))) ≠
    0) (h15 : (tan (wing_sweep / (π / 180))) + (((1 - wing_taper_ratio) * (1 / (1 +
    wing_taper_ratio))) / wing_aspect_ratio) ≠ 0) (h16 : (11 / 10) - (atmosphere_mach * (1 / (sqrt
    (1 + (((tan (wing_sweep / (π / 180))) + (((1 - wing_taper_ratio) * (1 / (1 +
    wing_taper_ratio))) / wing_aspect_ratio)) ^ 2))))) ≠ 0) (h17 : (11 / 10) - ((11 / 100) / ((11
    / 10) - (atmosphere_mach * (1 / (sqrt (1 + (((tan (wing_sweep / (π / 180))) + (((1 -
    wing_taper_ratio) * (1 / (1 + wing_taper_ratio))) / wing_aspect_ratio)) ^ 2))))))) ≠ 0) (h18 :
    wing_span_efficiency_factor ≠ 3 / 10) :
    HasDerivAt (fun t => out_induced_drag_coeff gamma atmosphere_mach t atmosphere_static_pressure
      wing_area wing_aspect_ratio wing_span_efficiency_factor wing_sweep wing_taper_ratio)
      (J_induced_drag_coeff__vehicle_lift gamma atmosphere_mach vehicle_lift
      atmosphere_static_pressure wing_area wing_aspect_ratio wing_span_efficiency_factor
      wing_sweep wing_taper_ratio) vehicle_lift ∧
    HasDerivAt (fun t => out_induced_drag_coeff gamma atmosphere_mach vehicle_lift t wing_area
      wing_aspect_ratio wing_span_efficiency_factor wing_sweep wing_taper_ratio)
      (J_induced_drag_coeff__atmosphere_static_pressure gamma atmosphere_mach vehicle_lift
      atmosphere_static_pressure wing_area wing_aspect_ratio wing_span_efficiency_factor
      wing_sweep wing_taper_ratio) atmosphere_static_pressure ∧
    HasDerivAt (fun t => out_induced_drag_coeff gamma atmosphere_mach vehicle_lift
      atmosphere_static_pressure t wing_aspect_ratio wing_span_efficiency_factor wing_sweep
      wing_taper_ratio) (J_induced_drag_coeff__wing_area gamma atmosphere_mach vehicle_lift
      atmosphere_static_pressure wing_area wing_aspect_ratio wing_span_efficiency_factor
      wing_sweep wing_taper_ratio) wing_area ∧
    HasDerivAt (fun t => out_induced_drag_coeff gamma atmosphere_mach vehicle_lift
      atmosphere_static_pressure wing_area wing_aspect_ratio t wing_sweep wing_taper_ratio)
      (J_induced_drag_coeff__wing_span_efficiency_factor gamma atmosphere_mach vehicle_lift
      atmosphere_static_pressure wing_area wing_aspect_ratio wing_span_efficiency_factor)
      wing_span_efficiency_factor :=
  ⟨d_induced_drag_coeff__vehicle_lift _ _ _ _ _ _ _ _ _ h0 h1 h2 h3 h4 h5 h6 h7 h8 h9 h10 h11 h12
    h13 h14 h15 h16 h17, d_induced_drag_coeff__atmosphere_static_pressure _ _ _ _ _ _ _ _ _ h0 h1
    h2 h3 h4 h5 h6 h7 h8 h9 h10 h11 h12 h13 h14 h15 h16 h17, d_induced_drag_coeff__wing_area _ _ _
    _ _ _ _ _ _ h0 h1 h2 h3 h4 h5 h6 h7 h8 h9 h10 h11 h12 h13 h14 h15 h16 h17,
    d_induced_drag_coeff__wing_span_efficiency_factor _ _ _ _ _ _ _ _ _ h0 h1 h2 h3 h18 h4 h5 h6
    h7 h8 h9 h10 h11 h12⟩

end Verif.Comp.AerodynamicsFlopsBasedInducedDrag.InducedDrag_no_wingspanefficiencyreduction

