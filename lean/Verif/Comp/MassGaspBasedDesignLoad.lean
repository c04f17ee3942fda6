import Verif.Lemmas.CompDeriv

/-! # Partial derivatives of the components of `aviary/subsystems/mass/gasp_based/design_load.py`

One node of a vector component is modelled over the real numbers.  Each option that selects a
branch is fixed, one namespace per choice.  `out_x` is the output `x`, `J_x__y` the entry that
`compute_partials` (or `declare_partials` with `val`) assigns, `d_x__y` the proof that the entry is
the derivative.  Inputs an output does not take as argument have no influence on it.

* `LoadParameters_smooth`: line 393: `max_mach` is read although one branch leaves it unbound
* `LoadParameters_smooth`: line 393: `max_mach` is read although one branch leaves it unbound
* `LoadParameters_smooth`: line 394: `max_mach` is read although one branch leaves it unbound
* `LoadParameters_smooth`: line 461: `max_mach` is read although one branch leaves it unbound
* `LoadParameters_smooth`: line 461: `max_mach` is read although one branch leaves it unbound
* `LoadParameters_smooth`: line 462: `max_mach` is read although one branch leaves it unbound
* `LoadParameters_smooth`: line 465: `dmax_mach_dmax_airspeed` is read although one branch leaves
  it unbound
* `LoadParameters_smooth`: line 465: `max_mach` is read although one branch leaves it unbound
* `LoadParameters_smooth`: line 466: `max_mach` is read although one branch leaves it unbound
* `LoadParameters_smooth`: line 467: `max_mach` is read although one branch leaves it unbound
* `LoadParameters_smooth`: line 468: `max_mach` is read although one branch leaves it unbound
* `LoadParameters_smooth`: line 468: `dmax_mach_dmax_airspeed` is read although one branch leaves
  it unbound
* `LoadParameters_smooth`: line 470: `max_mach` is read although one branch leaves it unbound
* `LoadParameters_smooth`: line 471: `max_mach` is read although one branch leaves it unbound
* `LoadParameters_smooth`: line 471: `dmax_mach_dmax_airspeed` is read although one branch leaves
  it unbound
* `LoadParameters_smooth`: not proved: `density_ratio` by `max_airspeed`, `max_mach` by
  `max_airspeed`, `v9` by `max_airspeed`

* `LoadParameters_no_smooth`: line 398: `max_mach` is read although one branch leaves it unbound
* `LoadParameters_no_smooth`: line 401: `max_mach` is read although one branch leaves it unbound
* `LoadParameters_no_smooth`: line 428: `max_mach` is read although one branch leaves it unbound
* `LoadParameters_no_smooth`: line 438: `max_mach` is read although one branch leaves it unbound
* `LoadParameters_no_smooth`: line 475: `max_mach` is read although one branch leaves it unbound
* `LoadParameters_no_smooth`: line 479: `max_mach` is read although one branch leaves it unbound
* `LoadParameters_no_smooth`: line 482: `max_mach` is read although one branch leaves it unbound
* `LoadParameters_no_smooth`: line 483: `max_mach` is read although one branch leaves it unbound
* `LoadParameters_no_smooth`: line 483: `dmax_mach_dmax_airspeed` is read although one branch
  leaves it unbound
* `LoadParameters_no_smooth`: line 568: `dmax_mach_dmax_airspeed` is read although one branch
  leaves it unbound
* `LoadParameters_no_smooth`: line 582: `dmax_mach_dmax_airspeed` is read although one branch
  leaves it unbound
* `LoadParameters_no_smooth`: not proved: `density_ratio` by `max_airspeed`, `max_mach` by
  `max_airspeed`, `v9` by `max_airspeed` -/

set_option linter.all false

namespace Verif.Comp.MassGaspBasedDesignLoad.LoadParameters_smooth
open Real

/-- aviary/subsystems/mass/gasp_based/design_load.py:386 -/
noncomputable abbrev max_mach (max_airspeed : ℝ) : ℝ := max_airspeed / (48633 / 100)

/-- aviary/subsystems/mass/gasp_based/design_load.py:388 -/
noncomputable abbrev max_mach_2 (max_airspeed : ℝ) : ℝ := max_airspeed / (42473 / 100)

/-- aviary/subsystems/mass/gasp_based/design_load.py:387 -/
noncomputable abbrev max_mach_3 (design_cruise_altitude max_airspeed : ℝ) : ℝ :=
  if (22500 < design_cruise_altitude ∧ design_cruise_altitude ≤ 36000) then (max_mach_2
    max_airspeed) else (max_mach max_airspeed)

/-- aviary/subsystems/mass/gasp_based/design_load.py:390 -/
noncomputable abbrev max_mach_4 (max_airspeed : ℝ) : ℝ := max_airspeed / (18617 / 50)

/-- aviary/subsystems/mass/gasp_based/design_load.py:389 -/
noncomputable abbrev max_mach_5 (design_cruise_altitude max_airspeed : ℝ) : ℝ :=
  if 36000 < design_cruise_altitude then (max_mach_4 max_airspeed) else (max_mach_3
    design_cruise_altitude max_airspeed)

/-- aviary/subsystems/mass/gasp_based/design_load.py:393 -/
noncomputable abbrev max_mach_6 (design_cruise_altitude max_airspeed : ℝ) : ℝ :=
  ((max_mach_5 design_cruise_altitude max_airspeed) * (sigX ((max_mach_5 design_cruise_altitude
    max_airspeed) / (9 / 10)) 1 (-(1 / 100)))) + ((9 / 10) * (sigX ((max_mach_5
    design_cruise_altitude max_airspeed) / (9 / 10)) 1 (1 / 100)))

/-- aviary/subsystems/mass/gasp_based/design_load.py:401 -/
noncomputable abbrev density_ratio (design_cruise_altitude max_airspeed : ℝ) : ℝ :=
  (max_airspeed / ((6617 / 10) * (max_mach_6 design_cruise_altitude max_airspeed))) ^ ((161949 /
    100000) : ℝ)

/-- aviary/subsystems/mass/gasp_based/design_load.py:404 -/
noncomputable abbrev sige (design_cruise_altitude max_airspeed : ℝ) : ℝ :=
  sigX (density_ratio design_cruise_altitude max_airspeed) 1 (-(1 / 100))

/-- aviary/subsystems/mass/gasp_based/design_load.py:405 -/
noncomputable abbrev sigf (design_cruise_altitude max_airspeed : ℝ) : ℝ :=
  sigX (density_ratio design_cruise_altitude max_airspeed) 1 (1 / 100)

/-- aviary/subsystems/mass/gasp_based/design_load.py:406 -/
noncomputable abbrev v9 (design_cruise_altitude vel_c max_airspeed : ℝ) : ℝ :=
  (vel_c * (sige design_cruise_altitude max_airspeed)) + (((6617 / 10) * (max_mach_6
    design_cruise_altitude max_airspeed)) * (sigf design_cruise_altitude max_airspeed))

/-- aviary/subsystems/mass/gasp_based/design_load.py:410 -/
noncomputable abbrev density_ratio_2 (design_cruise_altitude max_airspeed : ℝ) : ℝ :=
  (((341 / 500) * (sigX ((density_ratio design_cruise_altitude max_airspeed) / (341 / 500)) 1
    (-(1 / 100)))) + (((density_ratio design_cruise_altitude max_airspeed) * (sigX
    ((density_ratio design_cruise_altitude max_airspeed) / (341 / 500)) 1 (1 / 100))) * (sige
    design_cruise_altitude max_airspeed))) + (sigf design_cruise_altitude max_airspeed)

/-- aviary/subsystems/mass/gasp_based/design_load.py:418 -/
noncomputable abbrev density_ratio_3 (design_cruise_altitude max_airspeed : ℝ) : ℝ :=
  (((53281 / 100000) * (sigX ((density_ratio design_cruise_altitude max_airspeed) / (53281 /
    100000)) 1 (-(1 / 100)))) + (((density_ratio design_cruise_altitude max_airspeed) * (sigX
    ((density_ratio design_cruise_altitude max_airspeed) / (53281 / 100000)) 1 (1 / 100))) *
    (sige design_cruise_altitude max_airspeed))) + (sigf design_cruise_altitude max_airspeed)

/-- aviary/subsystems/mass/gasp_based/design_load.py:408 -/
noncomputable abbrev density_ratio_4 (design_cruise_altitude design_part25_structural_category max_airspeed : ℝ) : ℝ :=
  if design_part25_structural_category < 3 then (density_ratio_2 design_cruise_altitude
    max_airspeed) else (density_ratio_3 design_cruise_altitude max_airspeed)

/-- aviary/subsystems/mass/gasp_based/design_load.py:453 -/
noncomputable abbrev dmax_mach_dmax_airspeed (design_cruise_altitude : ℝ) : ℝ :=
  if (22500 < design_cruise_altitude ∧ design_cruise_altitude ≤ 36000) then (100 / 42473) else
    (100 / 48633)

/-- aviary/subsystems/mass/gasp_based/design_load.py:456 -/
noncomputable abbrev dmax_mach_dmax_airspeed_2 (design_cruise_altitude : ℝ) : ℝ :=
  if 36000 < design_cruise_altitude then (50 / 18617) else (dmax_mach_dmax_airspeed
    design_cruise_altitude)

/-- aviary/subsystems/mass/gasp_based/design_load.py:461 -/
noncomputable abbrev max_mach_1 (design_cruise_altitude max_airspeed : ℝ) : ℝ :=
  ((max_mach_5 design_cruise_altitude max_airspeed) * (sigX ((max_mach_5 design_cruise_altitude
    max_airspeed) / (9 / 10)) 1 (-(1 / 100)))) + ((9 / 10) * (sigX ((max_mach_5
    design_cruise_altitude max_airspeed) / (9 / 10)) 1 (1 / 100)))

/-- aviary/subsystems/mass/gasp_based/design_load.py:464 -/
noncomputable abbrev dmax_mach_dmax_airspeed_3 (design_cruise_altitude max_airspeed : ℝ) : ℝ :=
  (((dmax_mach_dmax_airspeed_2 design_cruise_altitude) * (sigX ((max_mach_5
    design_cruise_altitude max_airspeed) / (9 / 10)) 1 (-(1 / 100)))) + (((max_mach_5
    design_cruise_altitude max_airspeed) * (dsigX ((max_mach_5 design_cruise_altitude
    max_airspeed) / (9 / 10)) 1 (1 / 100))) * ((((-(dmax_mach_dmax_airspeed_2
    design_cruise_altitude)) * (9 / 10)) - (((9 / 10) - (max_mach_5 design_cruise_altitude
    max_airspeed)) * 0)) / (81 / 100)))) + (((9 / 10) * (dsigX ((max_mach_5
    design_cruise_altitude max_airspeed) / (9 / 10)) 1 (1 / 100))) *
    ((((dmax_mach_dmax_airspeed_2 design_cruise_altitude) * (9 / 10)) - (((max_mach_5
    design_cruise_altitude max_airspeed) - (9 / 10)) * 0)) / (81 / 100)))

/-- aviary/subsystems/mass/gasp_based/design_load.py:479 -/
noncomputable abbrev density_ratio_5 (design_cruise_altitude max_airspeed : ℝ) : ℝ :=
  (max_airspeed / ((6617 / 10) * (max_mach_1 design_cruise_altitude max_airspeed))) ^ ((161949 /
    100000) : ℝ)

/-- aviary/subsystems/mass/gasp_based/design_load.py:480 -/
noncomputable abbrev ddensity_ratio_dmax_airspeed (design_cruise_altitude max_airspeed : ℝ) : ℝ :=
  ((161949 / 100000) * ((max_airspeed / ((6617 / 10) * (max_mach_1 design_cruise_altitude
    max_airspeed))) ^ ((61949 / 100000) : ℝ))) * ((((6617 / 10) * (max_mach_1
    design_cruise_altitude max_airspeed)) - (max_airspeed * ((6617 / 10) *
    (dmax_mach_dmax_airspeed_3 design_cruise_altitude max_airspeed)))) / (((6617 / 10) *
    (max_mach_1 design_cruise_altitude max_airspeed)) ^ 2))

/-- aviary/subsystems/mass/gasp_based/design_load.py:487 -/
noncomputable abbrev sige_2 (design_cruise_altitude max_airspeed : ℝ) : ℝ :=
  sigX (density_ratio_5 design_cruise_altitude max_airspeed) 1 (-(1 / 100))

/-- aviary/subsystems/mass/gasp_based/design_load.py:488 -/
noncomputable abbrev sigf_2 (design_cruise_altitude max_airspeed : ℝ) : ℝ :=
  sigX (density_ratio_5 design_cruise_altitude max_airspeed) 1 (1 / 100)

/-- aviary/subsystems/mass/gasp_based/design_load.py:489 -/
noncomputable abbrev dsigf (design_cruise_altitude max_airspeed : ℝ) : ℝ :=
  dsigX (density_ratio_5 design_cruise_altitude max_airspeed) 1 (1 / 100)

/-- aviary/subsystems/mass/gasp_based/design_load.py:490 -/
noncomputable abbrev dv9_dmax_airspeed (design_cruise_altitude vel_c max_airspeed : ℝ) : ℝ :=
  ((vel_c * (dsigf design_cruise_altitude max_airspeed)) * (-(ddensity_ratio_dmax_airspeed
    design_cruise_altitude max_airspeed))) + (((((((6617 / 10) * (dmax_mach_dmax_airspeed_3
    design_cruise_altitude max_airspeed)) * (sigf_2 design_cruise_altitude max_airspeed)) *
    (6617 / 10)) * (max_mach_1 design_cruise_altitude max_airspeed)) * (dsigf
    design_cruise_altitude max_airspeed)) * (ddensity_ratio_dmax_airspeed design_cruise_altitude
    max_airspeed))

/-- aviary/subsystems/mass/gasp_based/design_load.py:509 -/
noncomputable abbrev ddensity_ratio_dmax_airspeed_2 (design_cruise_altitude max_airspeed : ℝ) : ℝ :=
  ((((((341 / 500) * (dsigX ((density_ratio_5 design_cruise_altitude max_airspeed) / (341 /
    500)) 1 (1 / 100))) * (-(ddensity_ratio_dmax_airspeed design_cruise_altitude max_airspeed)))
    / (341 / 500)) + (((ddensity_ratio_dmax_airspeed design_cruise_altitude max_airspeed) *
    (sigX ((density_ratio_5 design_cruise_altitude max_airspeed) / (341 / 500)) 1 (1 / 100))) *
    (sigf_2 design_cruise_altitude max_airspeed))) + ((density_ratio_5 design_cruise_altitude
    max_airspeed) * (((((dsigX ((density_ratio_5 design_cruise_altitude max_airspeed) / (341 /
    500)) 1 (1 / 100)) * (ddensity_ratio_dmax_airspeed design_cruise_altitude max_airspeed)) /
    (341 / 500)) * (sige_2 design_cruise_altitude max_airspeed)) + (((sigX ((density_ratio_5
    design_cruise_altitude max_airspeed) / (341 / 500)) 1 (1 / 100)) * (dsigf
    design_cruise_altitude max_airspeed)) * (-(ddensity_ratio_dmax_airspeed
    design_cruise_altitude max_airspeed)))))) + ((dsigf design_cruise_altitude max_airspeed) *
    (ddensity_ratio_dmax_airspeed design_cruise_altitude max_airspeed))

/-- aviary/subsystems/mass/gasp_based/design_load.py:538 -/
noncomputable abbrev ddensity_ratio_dmax_airspeed_3 (design_cruise_altitude max_airspeed : ℝ) : ℝ :=
  ((((((53281 / 100000) * (dsigX ((density_ratio_5 design_cruise_altitude max_airspeed) / (53281
    / 100000)) 1 (1 / 100))) * (-(ddensity_ratio_dmax_airspeed design_cruise_altitude
    max_airspeed))) / (53281 / 100000)) + (((ddensity_ratio_dmax_airspeed design_cruise_altitude
    max_airspeed) * (sigX ((density_ratio_5 design_cruise_altitude max_airspeed) / (53281 /
    100000)) 1 (1 / 100))) * (sige_2 design_cruise_altitude max_airspeed))) + ((density_ratio_5
    design_cruise_altitude max_airspeed) * (((((dsigX ((density_ratio_5 design_cruise_altitude
    max_airspeed) / (53281 / 100000)) 1 (1 / 100)) * (ddensity_ratio_dmax_airspeed
    design_cruise_altitude max_airspeed)) / (53281 / 100000)) * (sige_2 design_cruise_altitude
    max_airspeed)) + (((sigX ((density_ratio_5 design_cruise_altitude max_airspeed) / (53281 /
    100000)) 1 (-(1 / 100))) * (sigf_2 design_cruise_altitude max_airspeed)) *
    (-(ddensity_ratio_dmax_airspeed design_cruise_altitude max_airspeed)))))) + ((dsigf
    design_cruise_altitude max_airspeed) * (ddensity_ratio_dmax_airspeed design_cruise_altitude
    max_airspeed))

/-- aviary/subsystems/mass/gasp_based/design_load.py:502 -/
noncomputable abbrev ddensity_ratio_dmax_airspeed_4 (design_cruise_altitude design_part25_structural_category max_airspeed : ℝ) : ℝ :=
  if design_part25_structural_category < 3 then (ddensity_ratio_dmax_airspeed_2
    design_cruise_altitude max_airspeed) else (ddensity_ratio_dmax_airspeed_3
    design_cruise_altitude max_airspeed)

/-- Output `max_mach` of `LoadParameters.compute`, aviary/subsystems/mass/gasp_based/design_load.py:438 -/
noncomputable def out_max_mach (design_cruise_altitude max_airspeed : ℝ) : ℝ :=
  max_mach_6 design_cruise_altitude max_airspeed

/-- Output `density_ratio` of `LoadParameters.compute`, aviary/subsystems/mass/gasp_based/design_load.py:439 -/
noncomputable def out_density_ratio (design_cruise_altitude design_part25_structural_category max_airspeed : ℝ) : ℝ :=
  density_ratio_4 design_cruise_altitude design_part25_structural_category max_airspeed

/-- Output `v9` of `LoadParameters.compute`, aviary/subsystems/mass/gasp_based/design_load.py:440 -/
noncomputable def out_v9 (design_cruise_altitude vel_c max_airspeed : ℝ) : ℝ :=
  v9 design_cruise_altitude vel_c max_airspeed

/-- Partial of `max_mach` with respect to `max_airspeed` as set by `LoadParameters`, aviary/subsystems/mass/gasp_based/design_load.py:582 -/
noncomputable def J_max_mach__max_airspeed (design_cruise_altitude max_airspeed : ℝ) : ℝ :=
  dmax_mach_dmax_airspeed_3 design_cruise_altitude max_airspeed

/-- Partial of `density_ratio` with respect to `max_airspeed` as set by `LoadParameters`, aviary/subsystems/mass/gasp_based/design_load.py:583 -/
noncomputable def J_density_ratio__max_airspeed (design_cruise_altitude design_part25_structural_category max_airspeed : ℝ) : ℝ :=
  ddensity_ratio_dmax_airspeed_4 design_cruise_altitude design_part25_structural_category
    max_airspeed

/-- Partial of `v9` with respect to `max_airspeed` as set by `LoadParameters`, aviary/subsystems/mass/gasp_based/design_load.py:584 -/
noncomputable def J_v9__max_airspeed (design_cruise_altitude vel_c max_airspeed : ℝ) : ℝ :=
  dv9_dmax_airspeed design_cruise_altitude vel_c max_airspeed

/-- Partial of `v9` with respect to `vel_c` as set by `LoadParameters`, aviary/subsystems/mass/gasp_based/design_load.py:585 -/
noncomputable def J_v9__vel_c (design_cruise_altitude max_airspeed : ℝ) : ℝ :=
  sige_2 design_cruise_altitude max_airspeed

theorem d_v9__vel_c (design_cruise_altitude vel_c max_airspeed : ℝ) (h0 : ((if 36000 <
    design_cruise_altitude then (max_airspeed / (18617 / 50)) else (if (22500 <
    design_cruise_altitude ∧ design_cruise_altitude ≤ 36000) then (max_airspeed / (42473 / 100))
    else (max_airspeed / (48633 / 100)))) * (sigX ((if 36000 < design_cruise_altitude then
    (max_airspeed / (18617 / 50)) else (if (22500 < design_cruise_altitude ∧
    design_cruise_altitude ≤ 36000) then (max_airspeed / (42473 / 100)) else (max_airspeed /
    (48633 / 100)))) / (9 / 10)) 1 (-(1 / 100)))) + ((9 / 10) * (sigX ((if 36000 <
    design_cruise_altitude then (max_airspeed / (18617 / 50)) else (if (22500 <
    design_cruise_altitude ∧ design_cruise_altitude ≤ 36000) then (max_airspeed / (42473 / 100))
    else (max_airspeed / (48633 / 100)))) / (9 / 10)) 1 (1 / 100))) ≠ 0) (h1 : 0 < max_airspeed)
    (h2 : 0 < ((if 36000 < design_cruise_altitude then (max_airspeed / (18617 / 50)) else (if
    (22500 < design_cruise_altitude ∧ design_cruise_altitude ≤ 36000) then (max_airspeed / (42473
    / 100)) else (max_airspeed / (48633 / 100)))) * (sigX ((if 36000 < design_cruise_altitude then
    (max_airspeed / (18617 / 50)) else (if (22500 < design_cruise_altitude ∧
    design_cruise_altitude ≤ 36000) then (max_airspeed / (42473 / 100)) else (max_airspeed /
    (48633 / 100)))) / (9 / 10)) 1 (-(1 / 100)))) + ((9 / 10) * (sigX ((if 36000 <
    design_cruise_altitude then (max_airspeed / (18617 / 50)) else (if (22500 <
    design_cruise_altitude ∧ design_cruise_altitude ≤ 36000) then (max_airspeed / (42473 / 100))
    else (max_airspeed / (48633 / 100)))) / (9 / 10)) 1 (1 / 100)))) :
    HasDerivAt (fun t => out_v9 design_cruise_altitude t max_airspeed) (J_v9__vel_c design_cruise_altitude max_airspeed) vel_c := by
  have e0 : ∀ x : ℝ, 0 < x → x ^ ((161949 / 100000) : ℝ) = x ^ ((61949 / 100000) : ℝ) * x ^ 1 := fun x hx => rpow_up hx 1 (by norm_num)
  simp only [out_v9, J_v9__vel_c, sige_2, density_ratio_5, max_mach_1, v9, sigf, sige, density_ratio, max_mach_6, max_mach_5, max_mach_3, max_mach, max_mach_2, max_mach_4]
  try split_ifs
  all_goals (apply hasDerivAt_of_eq; on_goal 1 => (repeat' comp_step))
  all_goals try comp_side
  all_goals try simp (disch := first | assumption | positivity) only [e0]
  all_goals try split_ifs
  all_goals try (exfalso; linarith)
  all_goals try simp only [mul_zero, zero_mul, add_zero, zero_add, sub_zero, zero_sub, mul_one, one_mul]
  all_goals try push_cast
  all_goals comp_eq

/-- Partial derivatives of `LoadParameters` that are proved correct (the rest is listed in the header). -/
theorem partials_partial (design_cruise_altitude vel_c max_airspeed : ℝ) (h0 : ((if 36000 <
    design_cruise_altitude then (max_airspeed / (18617 / 50)) else (if (22500 <
    design_cruise_altitude ∧ design_cruise_altitude ≤ 36000) then (max_airspeed / (42473 / 100))
    else (max_airspeed / (48633 / 100)))) * (sigX ((if 36000 < design_cruise_altitude then
    (max_airspeed / (18617 / 50)) else (if (22500 < design_cruise_altitude ∧
    design_cruise_altitude ≤ 36000) then (max_airspeed / (42473 / 100)) else (max_airspeed /
    (48633 / 100)))) / (9 / 10)) 1 (-(1 / 100)))) + ((9 / 10) * (sigX ((if 36000 <
    design_cruise_altitude then (max_airspeed / (18617 / 50)) else (if (22500 <
    design_cruise_altitude ∧ design_cruise_altitude ≤ 36000) then (max_airspeed / (42473 / 100))
    else (max_airspeed / (48633 / 100)))) / (9 / 10)) 1 (1 / 100))) ≠ 0) (h1 : 0 < max_airspeed)
    (h2 : 0 < ((if 36000 < design_cruise_altitude then (max_airspeed / (18617 / 50)) else (if
    (22500 < design_cruise_altitude ∧ design_cruise_altitude ≤ 36000) then (max_airspeed / (42473
    / 100)) else (max_airspeed / (48633 / 100)))) * (sigX ((if 36000 < design_cruise_altitude then
    (max_airspeed / (18617 / 50)) else (if (22500 < design_cruise_altitude ∧
    design_cruise_altitude ≤ 36000) then (max_airspeed / (42473 / 100)) else (max_airspeed /
    (48633 / 100)))) / (9 / 10)) 1 (-(1 / 100)))) + ((9 / 10) * (sigX ((if 36000 <
    design_cruise_altitude then (max_airspeed / (18617 / 50)) else (if (22500 <
    design_cruise_altitude ∧ design_cruise_altitude ≤ 36000) then (max_airspeed / (42473 / 100))
    else (max_airspeed / (48633 / 100)))) / (9 / 10)) 1 (1 / 100)))) :
    HasDerivAt (fun t => out_v9 design_cruise_altitude t max_airspeed) (J_v9__vel_c
      design_cruise_altitude max_airspeed) vel_c :=
  d_v9__vel_c _ _ _ h0 h1 h2

end Verif.Comp.MassGaspBasedDesignLoad.LoadParameters_smooth

namespace Verif.Comp.MassGaspBasedDesignLoad.LoadParameters_no_smooth
open Real

/-- aviary/subsystems/mass/gasp_based/design_load.py:386 -/
noncomputable abbrev max_mach (max_airspeed : ℝ) : ℝ := max_airspeed / (48633 / 100)

/-- aviary/subsystems/mass/gasp_based/design_load.py:388 -/
noncomputable abbrev max_mach_2 (max_airspeed : ℝ) : ℝ := max_airspeed / (42473 / 100)

/-- aviary/subsystems/mass/gasp_based/design_load.py:387 -/
noncomputable abbrev max_mach_3 (design_cruise_altitude max_airspeed : ℝ) : ℝ :=
  if (22500 < design_cruise_altitude ∧ design_cruise_altitude ≤ 36000) then (max_mach_2
    max_airspeed) else (max_mach max_airspeed)

/-- aviary/subsystems/mass/gasp_based/design_load.py:390 -/
noncomputable abbrev max_mach_4 (max_airspeed : ℝ) : ℝ := max_airspeed / (18617 / 50)

/-- aviary/subsystems/mass/gasp_based/design_load.py:389 -/
noncomputable abbrev max_mach_5 (design_cruise_altitude max_airspeed : ℝ) : ℝ :=
  if 36000 < design_cruise_altitude then (max_mach_4 max_airspeed) else (max_mach_3
    design_cruise_altitude max_airspeed)

/-- aviary/subsystems/mass/gasp_based/design_load.py:398 -/
noncomputable abbrev max_mach_6 (design_cruise_altitude max_airspeed : ℝ) : ℝ :=
  if (9 / 10) < (max_mach_5 design_cruise_altitude max_airspeed) then (9 / 10) else (max_mach_5
    design_cruise_altitude max_airspeed)

/-- aviary/subsystems/mass/gasp_based/design_load.py:401 -/
noncomputable abbrev density_ratio (design_cruise_altitude max_airspeed : ℝ) : ℝ :=
  (max_airspeed / ((6617 / 10) * (max_mach_6 design_cruise_altitude max_airspeed))) ^ ((161949 /
    100000) : ℝ)

/-- aviary/subsystems/mass/gasp_based/design_load.py:428 -/
noncomputable abbrev v9 (design_cruise_altitude max_airspeed : ℝ) : ℝ :=
  (6617 / 10) * (max_mach_6 design_cruise_altitude max_airspeed)

/-- aviary/subsystems/mass/gasp_based/design_load.py:427 -/
noncomputable abbrev density_ratio_2 (design_cruise_altitude max_airspeed : ℝ) : ℝ :=
  if 1 < (density_ratio design_cruise_altitude max_airspeed) then 1 else (density_ratio
    design_cruise_altitude max_airspeed)

/-- aviary/subsystems/mass/gasp_based/design_load.py:427 -/
noncomputable abbrev v9_2 (design_cruise_altitude vel_c max_airspeed : ℝ) : ℝ :=
  if 1 < (density_ratio design_cruise_altitude max_airspeed) then (v9 design_cruise_altitude
    max_airspeed) else vel_c

/-- aviary/subsystems/mass/gasp_based/design_load.py:425 -/
noncomputable abbrev density_ratio_3 (design_cruise_altitude max_airspeed : ℝ) : ℝ :=
  if (53281 / 100000) ≤ (density_ratio design_cruise_altitude max_airspeed) then
    (density_ratio_2 design_cruise_altitude max_airspeed) else (53281 / 100000)

/-- aviary/subsystems/mass/gasp_based/design_load.py:425 -/
noncomputable abbrev v9_3 (design_cruise_altitude vel_c max_airspeed : ℝ) : ℝ :=
  if (53281 / 100000) ≤ (density_ratio design_cruise_altitude max_airspeed) then (v9_2
    design_cruise_altitude vel_c max_airspeed) else vel_c

/-- aviary/subsystems/mass/gasp_based/design_load.py:435 -/
noncomputable abbrev density_ratio_4 (design_cruise_altitude design_part25_structural_category max_airspeed : ℝ) : ℝ :=
  if (design_part25_structural_category < 3 ∧ (density_ratio_3 design_cruise_altitude
    max_airspeed) ≤ (341 / 500)) then (341 / 500) else (density_ratio_3 design_cruise_altitude
    max_airspeed)

/-- aviary/subsystems/mass/gasp_based/design_load.py:453 -/
noncomputable abbrev dmax_mach_dmax_airspeed (design_cruise_altitude : ℝ) : ℝ :=
  if (22500 < design_cruise_altitude ∧ design_cruise_altitude ≤ 36000) then (100 / 42473) else
    (100 / 48633)

/-- aviary/subsystems/mass/gasp_based/design_load.py:456 -/
noncomputable abbrev dmax_mach_dmax_airspeed_2 (design_cruise_altitude : ℝ) : ℝ :=
  if 36000 < design_cruise_altitude then (50 / 18617) else (dmax_mach_dmax_airspeed
    design_cruise_altitude)

/-- aviary/subsystems/mass/gasp_based/design_load.py:475 -/
noncomputable abbrev dmax_mach_dmax_airspeed_3 (design_cruise_altitude max_airspeed : ℝ) : ℝ :=
  if (9 / 10) < (max_mach_5 design_cruise_altitude max_airspeed) then 0 else
    (dmax_mach_dmax_airspeed_2 design_cruise_altitude)

/-- aviary/subsystems/mass/gasp_based/design_load.py:480 -/
noncomputable abbrev ddensity_ratio_dmax_airspeed (design_cruise_altitude max_airspeed : ℝ) : ℝ :=
  ((161949 / 100000) * ((max_airspeed / ((6617 / 10) * (max_mach_6 design_cruise_altitude
    max_airspeed))) ^ ((61949 / 100000) : ℝ))) * ((((6617 / 10) * (max_mach_6
    design_cruise_altitude max_airspeed)) - (max_airspeed * ((6617 / 10) *
    (dmax_mach_dmax_airspeed_3 design_cruise_altitude max_airspeed)))) / (((6617 / 10) *
    (max_mach_6 design_cruise_altitude max_airspeed)) ^ 2))

/-- aviary/subsystems/mass/gasp_based/design_load.py:568 -/
noncomputable abbrev dv9_dmax_airspeed (design_cruise_altitude max_airspeed : ℝ) : ℝ :=
  (6617 / 10) * (dmax_mach_dmax_airspeed_3 design_cruise_altitude max_airspeed)

/-- aviary/subsystems/mass/gasp_based/design_load.py:564 -/
noncomputable abbrev ddensity_ratio_dmax_airspeed_2 (design_cruise_altitude max_airspeed : ℝ) : ℝ :=
  if 1 < (density_ratio design_cruise_altitude max_airspeed) then 0 else
    (ddensity_ratio_dmax_airspeed design_cruise_altitude max_airspeed)

/-- aviary/subsystems/mass/gasp_based/design_load.py:564 -/
noncomputable abbrev dv9_dvel_c (design_cruise_altitude max_airspeed : ℝ) : ℝ :=
  if 1 < (density_ratio design_cruise_altitude max_airspeed) then 0 else 1

/-- aviary/subsystems/mass/gasp_based/design_load.py:564 -/
noncomputable abbrev dv9_dmax_airspeed_2 (design_cruise_altitude max_airspeed : ℝ) : ℝ :=
  if 1 < (density_ratio design_cruise_altitude max_airspeed) then (dv9_dmax_airspeed
    design_cruise_altitude max_airspeed) else 0

/-- aviary/subsystems/mass/gasp_based/design_load.py:560 -/
noncomputable abbrev ddensity_ratio_dmax_airspeed_3 (design_cruise_altitude max_airspeed : ℝ) : ℝ :=
  if (53281 / 100000) ≤ (density_ratio design_cruise_altitude max_airspeed) then
    (ddensity_ratio_dmax_airspeed_2 design_cruise_altitude max_airspeed) else 0

/-- aviary/subsystems/mass/gasp_based/design_load.py:560 -/
noncomputable abbrev dv9_dvel_c_2 (design_cruise_altitude max_airspeed : ℝ) : ℝ :=
  if (53281 / 100000) ≤ (density_ratio design_cruise_altitude max_airspeed) then (dv9_dvel_c
    design_cruise_altitude max_airspeed) else 1

/-- aviary/subsystems/mass/gasp_based/design_load.py:560 -/
noncomputable abbrev dv9_dmax_airspeed_3 (design_cruise_altitude max_airspeed : ℝ) : ℝ :=
  if (53281 / 100000) ≤ (density_ratio design_cruise_altitude max_airspeed) then
    (dv9_dmax_airspeed_2 design_cruise_altitude max_airspeed) else 0

/-- aviary/subsystems/mass/gasp_based/design_load.py:578 -/
noncomputable abbrev ddensity_ratio_dmax_airspeed_4 (design_cruise_altitude design_part25_structural_category max_airspeed : ℝ) : ℝ :=
  if (design_part25_structural_category < 3 ∧ (density_ratio_3 design_cruise_altitude
    max_airspeed) ≤ (341 / 500)) then 0 else (ddensity_ratio_dmax_airspeed_3
    design_cruise_altitude max_airspeed)

/-- Output `max_mach` of `LoadParameters.compute`, aviary/subsystems/mass/gasp_based/design_load.py:438 -/
noncomputable def out_max_mach (design_cruise_altitude max_airspeed : ℝ) : ℝ :=
  max_mach_6 design_cruise_altitude max_airspeed

/-- Output `density_ratio` of `LoadParameters.compute`, aviary/subsystems/mass/gasp_based/design_load.py:439 -/
noncomputable def out_density_ratio (design_cruise_altitude design_part25_structural_category max_airspeed : ℝ) : ℝ :=
  density_ratio_4 design_cruise_altitude design_part25_structural_category max_airspeed

/-- Output `v9` of `LoadParameters.compute`, aviary/subsystems/mass/gasp_based/design_load.py:440 -/
noncomputable def out_v9 (design_cruise_altitude vel_c max_airspeed : ℝ) : ℝ :=
  v9_3 design_cruise_altitude vel_c max_airspeed

/-- Partial of `max_mach` with respect to `max_airspeed` as set by `LoadParameters`, aviary/subsystems/mass/gasp_based/design_load.py:582 -/
noncomputable def J_max_mach__max_airspeed (design_cruise_altitude max_airspeed : ℝ) : ℝ :=
  dmax_mach_dmax_airspeed_3 design_cruise_altitude max_airspeed

/-- Partial of `density_ratio` with respect to `max_airspeed` as set by `LoadParameters`, aviary/subsystems/mass/gasp_based/design_load.py:583 -/
noncomputable def J_density_ratio__max_airspeed (design_cruise_altitude design_part25_structural_category max_airspeed : ℝ) : ℝ :=
  ddensity_ratio_dmax_airspeed_4 design_cruise_altitude design_part25_structural_category
    max_airspeed

/-- Partial of `v9` with respect to `max_airspeed` as set by `LoadParameters`, aviary/subsystems/mass/gasp_based/design_load.py:584 -/
noncomputable def J_v9__max_airspeed (design_cruise_altitude max_airspeed : ℝ) : ℝ :=
  dv9_dmax_airspeed_3 design_cruise_altitude max_airspeed

/-- Partial of `v9` with respect to `vel_c` as set by `LoadParameters`, aviary/subsystems/mass/gasp_based/design_load.py:585 -/
noncomputable def J_v9__vel_c (design_cruise_altitude max_airspeed : ℝ) : ℝ :=
  dv9_dvel_c_2 design_cruise_altitude max_airspeed

theorem d_v9__vel_c (design_cruise_altitude vel_c max_airspeed : ℝ) (h0 : 0 < max_airspeed) :
    HasDerivAt (fun t => out_v9 design_cruise_altitude t max_airspeed) (J_v9__vel_c design_cruise_altitude max_airspeed) vel_c := by
  have e0 : ∀ x : ℝ, 0 < x → x ^ ((161949 / 100000) : ℝ) = x ^ ((61949 / 100000) : ℝ) * x ^ 1 := fun x hx => rpow_up hx 1 (by norm_num)
  simp only [out_v9, J_v9__vel_c, dv9_dvel_c_2, dv9_dvel_c, v9_3, v9_2, v9, density_ratio, max_mach_6, max_mach_5, max_mach_3, max_mach, max_mach_2, max_mach_4]
  try split_ifs
  all_goals (apply hasDerivAt_of_eq; on_goal 1 => (repeat' comp_step))
  all_goals try comp_side
  all_goals try simp (disch := first | assumption | positivity) only [e0]
  all_goals try split_ifs
  all_goals try (exfalso; linarith)
  all_goals try simp only [mul_zero, zero_mul, add_zero, zero_add, sub_zero, zero_sub, mul_one, one_mul]
  all_goals try push_cast
  all_goals comp_eq

/-- Partial derivatives of `LoadParameters` that are proved correct (the rest is listed in the header). -/
theorem partials_partial (design_cruise_altitude vel_c max_airspeed : ℝ) (h0 : 0 < max_airspeed) :
    HasDerivAt (fun t => out_v9 design_cruise_altitude t max_airspeed) (J_v9__vel_c
      design_cruise_altitude max_airspeed) vel_c :=
  d_v9__vel_c _ _ _ h0

example : ∃ design_cruise_altitude vel_c max_airspeed : ℝ,
      0 < max_airspeed :=
  ⟨0, 0, 1, by comp_example⟩

end Verif.Comp.MassGaspBasedDesignLoad.LoadParameters_no_smooth

