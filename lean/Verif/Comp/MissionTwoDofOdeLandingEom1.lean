import Verif.Lemmas.CompDeriv

/-! # Partial derivatives of the components of `aviary/mission/two_dof/ode/landing_eom.py`

One node of a vector component is modelled over the real numbers.  Each option that selects a
branch is fixed, one namespace per choice.  `out_x` is the output `x`, `J_x__y` the entry that
`compute_partials` (or `declare_partials` with `val`) assigns, `d_x__y` the proof that the entry is
the derivative.  Inputs an output does not take as argument have no influence on it.

* `GlideConditionComponent`: not proved: `flare_alt` by `atmosphere_density`, `flare_alt` by
  `cl_max`, `flare_alt` by `landing_glide_to_stall_ratio`, `flare_alt` by
  `landing_maximum_sink_rate`, `flare_alt` by `vehicle_mass`, `flare_alt` by `wing_area`,
  `glide_distance` by `atmosphere_density`, `glide_distance` by `cl_max`, `glide_distance` by
  `landing_glide_to_stall_ratio`, `glide_distance` by `landing_maximum_sink_rate`,
  `glide_distance` by `vehicle_mass`, `glide_distance` by `wing_area`, `theta` by
  `atmosphere_density`, `theta` by `cl_max`, `theta` by `landing_glide_to_stall_ratio`, `theta` by
  `landing_maximum_sink_rate`, `theta` by `vehicle_mass`, `theta` by `wing_area`, `tr_distance` by
  `atmosphere_density`, `tr_distance` by `cl_max`, `tr_distance` by
  `landing_glide_to_stall_ratio`, `tr_distance` by `landing_maximum_sink_rate`, `tr_distance` by
  `vehicle_mass`, `tr_distance` by `wing_area` -/

set_option linter.all false

namespace Verif.Comp.MissionTwoDofOdeLandingEom.GlideConditionComponent
open Real

/-- aviary/mission/two_dof/ode/landing_eom.py:201 -/
noncomputable def wing_loading_land (vehicle_mass wing_area : ℝ) : ℝ := vehicle_mass / wing_area

/-- aviary/mission/two_dof/ode/landing_eom.py:202 -/
noncomputable def tas_stall (atmosphere_density vehicle_mass wing_area cl_max : ℝ) : ℝ :=
  sqrt ((2 * (wing_loading_land vehicle_mass wing_area)) / (cl_max * atmosphere_density))

/-- aviary/mission/two_dof/ode/landing_eom.py:203 -/
noncomputable def tas_glide (atmosphere_density vehicle_mass wing_area landing_glide_to_stall_ratio cl_max : ℝ) : ℝ :=
  (tas_stall atmosphere_density vehicle_mass wing_area cl_max) * landing_glide_to_stall_ratio

/-- aviary/mission/two_dof/ode/landing_eom.py:204 -/
noncomputable def theta (atmosphere_density landing_maximum_sink_rate vehicle_mass wing_area landing_glide_to_stall_ratio cl_max : ℝ) : ℝ :=
  arcsin (landing_maximum_sink_rate / (60 * (tas_glide atmosphere_density vehicle_mass wing_area
    landing_glide_to_stall_ratio cl_max)))

/-- aviary/mission/two_dof/ode/landing_eom.py:205 -/
noncomputable def glide_distance (atmosphere_density landing_maximum_sink_rate vehicle_mass wing_area landing_glide_to_stall_ratio cl_max landing_initial_altitude : ℝ) : ℝ :=
  landing_initial_altitude / (tan (theta atmosphere_density landing_maximum_sink_rate
    vehicle_mass wing_area landing_glide_to_stall_ratio cl_max))

/-- aviary/mission/two_dof/ode/landing_eom.py:208 -/
noncomputable def gamma_touchdown (atmosphere_density vehicle_mass wing_area landing_glide_to_stall_ratio cl_max landing_touchdown_sink_rate : ℝ) : ℝ :=
  landing_touchdown_sink_rate / (tas_glide atmosphere_density vehicle_mass wing_area
    landing_glide_to_stall_ratio cl_max)

/-- aviary/mission/two_dof/ode/landing_eom.py:209 -/
noncomputable def touchdown_velocity_ratio (landing_glide_to_stall_ratio : ℝ) : ℝ :=
  (landing_glide_to_stall_ratio + 1) * (1 / 2)

/-- aviary/mission/two_dof/ode/landing_eom.py:210 -/
noncomputable def rz (gravity atmosphere_density vehicle_mass wing_area landing_glide_to_stall_ratio cl_max landing_maximum_flare_load_factor : ℝ) : ℝ :=
  (((tas_glide atmosphere_density vehicle_mass wing_area landing_glide_to_stall_ratio cl_max) *
    (tas_glide atmosphere_density vehicle_mass wing_area landing_glide_to_stall_ratio cl_max)) /
    gravity) / (landing_maximum_flare_load_factor - 1)

/-- aviary/mission/two_dof/ode/landing_eom.py:212 -/
noncomputable def flare_alt (gravity atmosphere_density landing_maximum_sink_rate vehicle_mass wing_area landing_glide_to_stall_ratio cl_max landing_maximum_flare_load_factor landing_touchdown_sink_rate : ℝ) : ℝ :=
  (((tas_glide atmosphere_density vehicle_mass wing_area landing_glide_to_stall_ratio cl_max) *
    (tas_glide atmosphere_density vehicle_mass wing_area landing_glide_to_stall_ratio cl_max)) *
    (((theta atmosphere_density landing_maximum_sink_rate vehicle_mass wing_area
    landing_glide_to_stall_ratio cl_max) * (theta atmosphere_density landing_maximum_sink_rate
    vehicle_mass wing_area landing_glide_to_stall_ratio cl_max)) - ((gamma_touchdown
    atmosphere_density vehicle_mass wing_area landing_glide_to_stall_ratio cl_max
    landing_touchdown_sink_rate) * (gamma_touchdown atmosphere_density vehicle_mass wing_area
    landing_glide_to_stall_ratio cl_max landing_touchdown_sink_rate)))) / ((2 * gravity) *
    (landing_maximum_flare_load_factor - 1))

/-- aviary/mission/two_dof/ode/landing_eom.py:218 -/
noncomputable def tas_touchdown (atmosphere_density vehicle_mass wing_area landing_glide_to_stall_ratio cl_max : ℝ) : ℝ :=
  (touchdown_velocity_ratio landing_glide_to_stall_ratio) * (tas_stall atmosphere_density
    vehicle_mass wing_area cl_max)

/-- aviary/mission/two_dof/ode/landing_eom.py:219 -/
noncomputable def tr_distance (gravity atmosphere_density landing_maximum_sink_rate vehicle_mass wing_area landing_glide_to_stall_ratio cl_max landing_maximum_flare_load_factor landing_touchdown_sink_rate : ℝ) : ℝ :=
  (((rz gravity atmosphere_density vehicle_mass wing_area landing_glide_to_stall_ratio cl_max
    landing_maximum_flare_load_factor) * (theta atmosphere_density landing_maximum_sink_rate
    vehicle_mass wing_area landing_glide_to_stall_ratio cl_max)) / 2) * ((1 - ((gamma_touchdown
    atmosphere_density vehicle_mass wing_area landing_glide_to_stall_ratio cl_max
    landing_touchdown_sink_rate) / (theta atmosphere_density landing_maximum_sink_rate
    vehicle_mass wing_area landing_glide_to_stall_ratio cl_max))) ^ 2)

/-- aviary/mission/two_dof/ode/landing_eom.py:220 -/
noncomputable def delay_distance (atmosphere_density vehicle_mass wing_area landing_glide_to_stall_ratio cl_max landing_braking_delay : ℝ) : ℝ :=
  (tas_touchdown atmosphere_density vehicle_mass wing_area landing_glide_to_stall_ratio cl_max)
    * landing_braking_delay

/-- aviary/mission/two_dof/ode/landing_eom.py:260 -/
noncomputable def dtasstall_dweight (atmosphere_density vehicle_mass wing_area cl_max : ℝ) : ℝ :=
  ((((2 * (1 / wing_area)) / (cl_max * atmosphere_density)) ^ ((1 / 2) : ℝ)) * (1 / 2)) *
    (vehicle_mass ^ ((-(1 / 2)) : ℝ))

/-- aviary/mission/two_dof/ode/landing_eom.py:263 -/
noncomputable def dtasstall_dwingarea (atmosphere_density vehicle_mass wing_area cl_max : ℝ) : ℝ :=
  ((((2 * vehicle_mass) / (cl_max * atmosphere_density)) ^ ((1 / 2) : ℝ)) * (-(1 / 2))) *
    (wing_area ^ ((-(3 / 2)) : ℝ))

/-- aviary/mission/two_dof/ode/landing_eom.py:266 -/
noncomputable def dtasstall_dclmax (atmosphere_density vehicle_mass wing_area cl_max : ℝ) : ℝ :=
  ((((2 * (wing_loading_land vehicle_mass wing_area)) / atmosphere_density) ^ ((1 / 2) : ℝ)) *
    (-(1 / 2))) * (cl_max ^ ((-(3 / 2)) : ℝ))

/-- aviary/mission/two_dof/ode/landing_eom.py:267 -/
noncomputable def dtasstall_drhoapp (atmosphere_density vehicle_mass wing_area cl_max : ℝ) : ℝ :=
  ((((2 * (wing_loading_land vehicle_mass wing_area)) / cl_max) ^ ((1 / 2) : ℝ)) * (-(1 / 2))) *
    (atmosphere_density ^ ((-(3 / 2)) : ℝ))

/-- aviary/mission/two_dof/ode/landing_eom.py:268 -/
noncomputable def dtasglide_dweight (atmosphere_density vehicle_mass wing_area landing_glide_to_stall_ratio cl_max : ℝ) : ℝ :=
  (dtasstall_dweight atmosphere_density vehicle_mass wing_area cl_max) *
    landing_glide_to_stall_ratio

/-- aviary/mission/two_dof/ode/landing_eom.py:269 -/
noncomputable def dtastd_dweight (atmosphere_density vehicle_mass wing_area landing_glide_to_stall_ratio cl_max : ℝ) : ℝ :=
  (touchdown_velocity_ratio landing_glide_to_stall_ratio) * (dtasstall_dweight
    atmosphere_density vehicle_mass wing_area cl_max)

/-- aviary/mission/two_dof/ode/landing_eom.py:270 -/
noncomputable def dtheta_dweight (atmosphere_density landing_maximum_sink_rate vehicle_mass wing_area landing_glide_to_stall_ratio cl_max : ℝ) : ℝ :=
  (((1 - ((landing_maximum_sink_rate / (60 * (tas_glide atmosphere_density vehicle_mass
    wing_area landing_glide_to_stall_ratio cl_max))) ^ 2)) ^ ((-(1 / 2)) : ℝ)) *
    ((-landing_maximum_sink_rate) / (60 * ((tas_glide atmosphere_density vehicle_mass wing_area
    landing_glide_to_stall_ratio cl_max) ^ 2)))) * (dtasglide_dweight atmosphere_density
    vehicle_mass wing_area landing_glide_to_stall_ratio cl_max)

/-- aviary/mission/two_dof/ode/landing_eom.py:279 -/
noncomputable def dtasglide_dwingarea (atmosphere_density vehicle_mass wing_area landing_glide_to_stall_ratio cl_max : ℝ) : ℝ :=
  (dtasstall_dwingarea atmosphere_density vehicle_mass wing_area cl_max) *
    landing_glide_to_stall_ratio

/-- aviary/mission/two_dof/ode/landing_eom.py:282 -/
noncomputable def dtasglide_dclmax (atmosphere_density vehicle_mass wing_area landing_glide_to_stall_ratio cl_max : ℝ) : ℝ :=
  (dtasstall_dclmax atmosphere_density vehicle_mass wing_area cl_max) *
    landing_glide_to_stall_ratio

/-- aviary/mission/two_dof/ode/landing_eom.py:285 -/
noncomputable def dtasglide_drhoapp (atmosphere_density vehicle_mass wing_area landing_glide_to_stall_ratio cl_max : ℝ) : ℝ :=
  (dtasstall_drhoapp atmosphere_density vehicle_mass wing_area cl_max) *
    landing_glide_to_stall_ratio

/-- aviary/mission/two_dof/ode/landing_eom.py:297 -/
noncomputable def dtastd_dglidetostallratio (atmosphere_density vehicle_mass wing_area cl_max : ℝ) : ℝ :=
  (1 / 2) * (tas_stall atmosphere_density vehicle_mass wing_area cl_max)

/-- aviary/mission/two_dof/ode/landing_eom.py:301 -/
noncomputable def dtastd_dwingarea (atmosphere_density vehicle_mass wing_area landing_glide_to_stall_ratio cl_max : ℝ) : ℝ :=
  (touchdown_velocity_ratio landing_glide_to_stall_ratio) * (dtasstall_dwingarea
    atmosphere_density vehicle_mass wing_area cl_max)

/-- aviary/mission/two_dof/ode/landing_eom.py:304 -/
noncomputable def dtastd_dclmax (atmosphere_density vehicle_mass wing_area landing_glide_to_stall_ratio cl_max : ℝ) : ℝ :=
  (touchdown_velocity_ratio landing_glide_to_stall_ratio) * (dtasstall_dclmax atmosphere_density
    vehicle_mass wing_area cl_max)

/-- aviary/mission/two_dof/ode/landing_eom.py:305 -/
noncomputable def dtastd_drhoapp (atmosphere_density vehicle_mass wing_area landing_glide_to_stall_ratio cl_max : ℝ) : ℝ :=
  (touchdown_velocity_ratio landing_glide_to_stall_ratio) * (dtasstall_drhoapp
    atmosphere_density vehicle_mass wing_area cl_max)

/-- aviary/mission/two_dof/ode/landing_eom.py:317 -/
noncomputable def dtheta_drateofsinkmax (atmosphere_density landing_maximum_sink_rate vehicle_mass wing_area landing_glide_to_stall_ratio cl_max : ℝ) : ℝ :=
  ((1 - ((landing_maximum_sink_rate / (60 * (tas_glide atmosphere_density vehicle_mass wing_area
    landing_glide_to_stall_ratio cl_max))) ^ 2)) ^ ((-(1 / 2)) : ℝ)) / (60 * (tas_glide
    atmosphere_density vehicle_mass wing_area landing_glide_to_stall_ratio cl_max))

/-- aviary/mission/two_dof/ode/landing_eom.py:321 -/
noncomputable def dtheta_dwingarea (atmosphere_density landing_maximum_sink_rate vehicle_mass wing_area landing_glide_to_stall_ratio cl_max : ℝ) : ℝ :=
  (((1 - ((landing_maximum_sink_rate / (60 * (tas_glide atmosphere_density vehicle_mass
    wing_area landing_glide_to_stall_ratio cl_max))) ^ 2)) ^ ((-(1 / 2)) : ℝ)) *
    ((-landing_maximum_sink_rate) / (60 * ((tas_glide atmosphere_density vehicle_mass wing_area
    landing_glide_to_stall_ratio cl_max) ^ 2)))) * (dtasglide_dwingarea atmosphere_density
    vehicle_mass wing_area landing_glide_to_stall_ratio cl_max)

/-- aviary/mission/two_dof/ode/landing_eom.py:326 -/
noncomputable def dtheta_dclmax (atmosphere_density landing_maximum_sink_rate vehicle_mass wing_area landing_glide_to_stall_ratio cl_max : ℝ) : ℝ :=
  (((1 - ((landing_maximum_sink_rate / (60 * (tas_glide atmosphere_density vehicle_mass
    wing_area landing_glide_to_stall_ratio cl_max))) ^ 2)) ^ ((-(1 / 2)) : ℝ)) *
    ((-landing_maximum_sink_rate) / (60 * ((tas_glide atmosphere_density vehicle_mass wing_area
    landing_glide_to_stall_ratio cl_max) ^ 2)))) * (dtasglide_dclmax atmosphere_density
    vehicle_mass wing_area landing_glide_to_stall_ratio cl_max)

/-- aviary/mission/two_dof/ode/landing_eom.py:331 -/
noncomputable def dtheta_drhoapp (atmosphere_density landing_maximum_sink_rate vehicle_mass wing_area landing_glide_to_stall_ratio cl_max : ℝ) : ℝ :=
  (((1 - ((landing_maximum_sink_rate / (60 * (tas_glide atmosphere_density vehicle_mass
    wing_area landing_glide_to_stall_ratio cl_max))) ^ 2)) ^ ((-(1 / 2)) : ℝ)) *
    ((-landing_maximum_sink_rate) / (60 * ((tas_glide atmosphere_density vehicle_mass wing_area
    landing_glide_to_stall_ratio cl_max) ^ 2)))) * (dtasglide_drhoapp atmosphere_density
    vehicle_mass wing_area landing_glide_to_stall_ratio cl_max)

/-- aviary/mission/two_dof/ode/landing_eom.py:336 -/
noncomputable def dtheta_dglidetostallratio (atmosphere_density landing_maximum_sink_rate vehicle_mass wing_area landing_glide_to_stall_ratio cl_max : ℝ) : ℝ :=
  (((1 - ((landing_maximum_sink_rate / (60 * (tas_glide atmosphere_density vehicle_mass
    wing_area landing_glide_to_stall_ratio cl_max))) ^ 2)) ^ ((-(1 / 2)) : ℝ)) *
    ((-landing_maximum_sink_rate) / (60 * ((tas_glide atmosphere_density vehicle_mass wing_area
    landing_glide_to_stall_ratio cl_max) ^ 2)))) * (tas_stall atmosphere_density vehicle_mass
    wing_area cl_max)

/-- aviary/mission/two_dof/ode/landing_eom.py:371 -/
noncomputable def rz_2 (gravity atmosphere_density vehicle_mass wing_area landing_glide_to_stall_ratio cl_max landing_maximum_flare_load_factor : ℝ) : ℝ :=
  (((tas_glide atmosphere_density vehicle_mass wing_area landing_glide_to_stall_ratio cl_max) ^
    2) / gravity) / (landing_maximum_flare_load_factor - 1)

/-- aviary/mission/two_dof/ode/landing_eom.py:373 -/
noncomputable def drz_dweight (gravity atmosphere_density vehicle_mass wing_area landing_glide_to_stall_ratio cl_max landing_maximum_flare_load_factor : ℝ) : ℝ :=
  (((2 * (tas_glide atmosphere_density vehicle_mass wing_area landing_glide_to_stall_ratio
    cl_max)) / gravity) / (landing_maximum_flare_load_factor - 1)) * (dtasglide_dweight
    atmosphere_density vehicle_mass wing_area landing_glide_to_stall_ratio cl_max)

/-- aviary/mission/two_dof/ode/landing_eom.py:374 -/
noncomputable def drz_dwingarea (gravity atmosphere_density vehicle_mass wing_area landing_glide_to_stall_ratio cl_max landing_maximum_flare_load_factor : ℝ) : ℝ :=
  (((2 * (tas_glide atmosphere_density vehicle_mass wing_area landing_glide_to_stall_ratio
    cl_max)) / gravity) / (landing_maximum_flare_load_factor - 1)) * (dtasglide_dwingarea
    atmosphere_density vehicle_mass wing_area landing_glide_to_stall_ratio cl_max)

/-- aviary/mission/two_dof/ode/landing_eom.py:375 -/
noncomputable def drz_dclmax (gravity atmosphere_density vehicle_mass wing_area landing_glide_to_stall_ratio cl_max landing_maximum_flare_load_factor : ℝ) : ℝ :=
  (((2 * (tas_glide atmosphere_density vehicle_mass wing_area landing_glide_to_stall_ratio
    cl_max)) / gravity) / (landing_maximum_flare_load_factor - 1)) * (dtasglide_dclmax
    atmosphere_density vehicle_mass wing_area landing_glide_to_stall_ratio cl_max)

/-- aviary/mission/two_dof/ode/landing_eom.py:376 -/
noncomputable def drz_drhoapp (gravity atmosphere_density vehicle_mass wing_area landing_glide_to_stall_ratio cl_max landing_maximum_flare_load_factor : ℝ) : ℝ :=
  (((2 * (tas_glide atmosphere_density vehicle_mass wing_area landing_glide_to_stall_ratio
    cl_max)) / gravity) / (landing_maximum_flare_load_factor - 1)) * (dtasglide_drhoapp
    atmosphere_density vehicle_mass wing_area landing_glide_to_stall_ratio cl_max)

/-- aviary/mission/two_dof/ode/landing_eom.py:377 -/
noncomputable def drz_dglidetostallratio (gravity atmosphere_density vehicle_mass wing_area landing_glide_to_stall_ratio cl_max landing_maximum_flare_load_factor : ℝ) : ℝ :=
  (((2 * (tas_glide atmosphere_density vehicle_mass wing_area landing_glide_to_stall_ratio
    cl_max)) / gravity) / (landing_maximum_flare_load_factor - 1)) * (tas_stall
    atmosphere_density vehicle_mass wing_area cl_max)

/-- aviary/mission/two_dof/ode/landing_eom.py:378 -/
noncomputable def drz_dlandingflareloadfactor (gravity atmosphere_density vehicle_mass wing_area landing_glide_to_stall_ratio cl_max landing_maximum_flare_load_factor : ℝ) : ℝ :=
  ((-((tas_glide atmosphere_density vehicle_mass wing_area landing_glide_to_stall_ratio cl_max)
    ^ 2)) / gravity) / ((landing_maximum_flare_load_factor - 1) ^ 2)

/-- aviary/mission/two_dof/ode/landing_eom.py:382 -/
noncomputable def dgammatd_drateofsinktd (atmosphere_density vehicle_mass wing_area landing_glide_to_stall_ratio cl_max : ℝ) : ℝ :=
  1 / (tas_glide atmosphere_density vehicle_mass wing_area landing_glide_to_stall_ratio cl_max)

/-- aviary/mission/two_dof/ode/landing_eom.py:383 -/
noncomputable def dgammatd_dweight (atmosphere_density vehicle_mass wing_area landing_glide_to_stall_ratio cl_max landing_touchdown_sink_rate : ℝ) : ℝ :=
  ((-landing_touchdown_sink_rate) / ((tas_glide atmosphere_density vehicle_mass wing_area
    landing_glide_to_stall_ratio cl_max) ^ 2)) * (dtasglide_dweight atmosphere_density
    vehicle_mass wing_area landing_glide_to_stall_ratio cl_max)

/-- aviary/mission/two_dof/ode/landing_eom.py:384 -/
noncomputable def dgammatd_dwingarea (atmosphere_density vehicle_mass wing_area landing_glide_to_stall_ratio cl_max landing_touchdown_sink_rate : ℝ) : ℝ :=
  ((-landing_touchdown_sink_rate) / ((tas_glide atmosphere_density vehicle_mass wing_area
    landing_glide_to_stall_ratio cl_max) ^ 2)) * (dtasglide_dwingarea atmosphere_density
    vehicle_mass wing_area landing_glide_to_stall_ratio cl_max)

/-- aviary/mission/two_dof/ode/landing_eom.py:385 -/
noncomputable def dgammatd_dclmax (atmosphere_density vehicle_mass wing_area landing_glide_to_stall_ratio cl_max landing_touchdown_sink_rate : ℝ) : ℝ :=
  ((-landing_touchdown_sink_rate) / ((tas_glide atmosphere_density vehicle_mass wing_area
    landing_glide_to_stall_ratio cl_max) ^ 2)) * (dtasglide_dclmax atmosphere_density
    vehicle_mass wing_area landing_glide_to_stall_ratio cl_max)

/-- aviary/mission/two_dof/ode/landing_eom.py:386 -/
noncomputable def dgammatd_drhoapp (atmosphere_density vehicle_mass wing_area landing_glide_to_stall_ratio cl_max landing_touchdown_sink_rate : ℝ) : ℝ :=
  ((-landing_touchdown_sink_rate) / ((tas_glide atmosphere_density vehicle_mass wing_area
    landing_glide_to_stall_ratio cl_max) ^ 2)) * (dtasglide_drhoapp atmosphere_density
    vehicle_mass wing_area landing_glide_to_stall_ratio cl_max)

/-- aviary/mission/two_dof/ode/landing_eom.py:387 -/
noncomputable def dgammatd_dglidetostallratio (atmosphere_density vehicle_mass wing_area landing_glide_to_stall_ratio cl_max landing_touchdown_sink_rate : ℝ) : ℝ :=
  ((-landing_touchdown_sink_rate) / ((tas_glide atmosphere_density vehicle_mass wing_area
    landing_glide_to_stall_ratio cl_max) ^ 2)) * (tas_stall atmosphere_density vehicle_mass
    wing_area cl_max)

/-- aviary/mission/two_dof/ode/landing_eom.py:389 -/
noncomputable def inter1 (gravity atmosphere_density landing_maximum_sink_rate vehicle_mass wing_area landing_glide_to_stall_ratio cl_max landing_maximum_flare_load_factor : ℝ) : ℝ :=
  ((rz_2 gravity atmosphere_density vehicle_mass wing_area landing_glide_to_stall_ratio cl_max
    landing_maximum_flare_load_factor) * (theta atmosphere_density landing_maximum_sink_rate
    vehicle_mass wing_area landing_glide_to_stall_ratio cl_max)) / 2

/-- aviary/mission/two_dof/ode/landing_eom.py:390 -/
noncomputable def dinter1_dlandingflareloadfactor (gravity atmosphere_density landing_maximum_sink_rate vehicle_mass wing_area landing_glide_to_stall_ratio cl_max landing_maximum_flare_load_factor : ℝ) : ℝ :=
  (1 / 2) * ((drz_dlandingflareloadfactor gravity atmosphere_density vehicle_mass wing_area
    landing_glide_to_stall_ratio cl_max landing_maximum_flare_load_factor) * (theta
    atmosphere_density landing_maximum_sink_rate vehicle_mass wing_area
    landing_glide_to_stall_ratio cl_max))

/-- aviary/mission/two_dof/ode/landing_eom.py:391 -/
noncomputable def dinter1_drateofsinkmax (gravity atmosphere_density landing_maximum_sink_rate vehicle_mass wing_area landing_glide_to_stall_ratio cl_max landing_maximum_flare_load_factor : ℝ) : ℝ :=
  (1 / 2) * ((rz_2 gravity atmosphere_density vehicle_mass wing_area
    landing_glide_to_stall_ratio cl_max landing_maximum_flare_load_factor) *
    (dtheta_drateofsinkmax atmosphere_density landing_maximum_sink_rate vehicle_mass wing_area
    landing_glide_to_stall_ratio cl_max))

/-- aviary/mission/two_dof/ode/landing_eom.py:392 -/
noncomputable def dinter1_dweight (gravity atmosphere_density landing_maximum_sink_rate vehicle_mass wing_area landing_glide_to_stall_ratio cl_max landing_maximum_flare_load_factor : ℝ) : ℝ :=
  (1 / 2) * (((drz_dweight gravity atmosphere_density vehicle_mass wing_area
    landing_glide_to_stall_ratio cl_max landing_maximum_flare_load_factor) * (theta
    atmosphere_density landing_maximum_sink_rate vehicle_mass wing_area
    landing_glide_to_stall_ratio cl_max)) + ((rz_2 gravity atmosphere_density vehicle_mass
    wing_area landing_glide_to_stall_ratio cl_max landing_maximum_flare_load_factor) *
    (dtheta_dweight atmosphere_density landing_maximum_sink_rate vehicle_mass wing_area
    landing_glide_to_stall_ratio cl_max)))

/-- aviary/mission/two_dof/ode/landing_eom.py:393 -/
noncomputable def dinter1_dwingarea (gravity atmosphere_density landing_maximum_sink_rate vehicle_mass wing_area landing_glide_to_stall_ratio cl_max landing_maximum_flare_load_factor : ℝ) : ℝ :=
  (1 / 2) * (((drz_dwingarea gravity atmosphere_density vehicle_mass wing_area
    landing_glide_to_stall_ratio cl_max landing_maximum_flare_load_factor) * (theta
    atmosphere_density landing_maximum_sink_rate vehicle_mass wing_area
    landing_glide_to_stall_ratio cl_max)) + ((rz_2 gravity atmosphere_density vehicle_mass
    wing_area landing_glide_to_stall_ratio cl_max landing_maximum_flare_load_factor) *
    (dtheta_dwingarea atmosphere_density landing_maximum_sink_rate vehicle_mass wing_area
    landing_glide_to_stall_ratio cl_max)))

/-- aviary/mission/two_dof/ode/landing_eom.py:394 -/
noncomputable def dinter1_dclmax (gravity atmosphere_density landing_maximum_sink_rate vehicle_mass wing_area landing_glide_to_stall_ratio cl_max landing_maximum_flare_load_factor : ℝ) : ℝ :=
  (1 / 2) * (((drz_dclmax gravity atmosphere_density vehicle_mass wing_area
    landing_glide_to_stall_ratio cl_max landing_maximum_flare_load_factor) * (theta
    atmosphere_density landing_maximum_sink_rate vehicle_mass wing_area
    landing_glide_to_stall_ratio cl_max)) + ((rz_2 gravity atmosphere_density vehicle_mass
    wing_area landing_glide_to_stall_ratio cl_max landing_maximum_flare_load_factor) *
    (dtheta_dclmax atmosphere_density landing_maximum_sink_rate vehicle_mass wing_area
    landing_glide_to_stall_ratio cl_max)))

/-- aviary/mission/two_dof/ode/landing_eom.py:395 -/
noncomputable def dinter1_drhoapp (gravity atmosphere_density landing_maximum_sink_rate vehicle_mass wing_area landing_glide_to_stall_ratio cl_max landing_maximum_flare_load_factor : ℝ) : ℝ :=
  (1 / 2) * (((drz_drhoapp gravity atmosphere_density vehicle_mass wing_area
    landing_glide_to_stall_ratio cl_max landing_maximum_flare_load_factor) * (theta
    atmosphere_density landing_maximum_sink_rate vehicle_mass wing_area
    landing_glide_to_stall_ratio cl_max)) + ((rz_2 gravity atmosphere_density vehicle_mass
    wing_area landing_glide_to_stall_ratio cl_max landing_maximum_flare_load_factor) *
    (dtheta_drhoapp atmosphere_density landing_maximum_sink_rate vehicle_mass wing_area
    landing_glide_to_stall_ratio cl_max)))

/-- aviary/mission/two_dof/ode/landing_eom.py:396 -/
noncomputable def dinter1_dglidetostallratio (gravity atmosphere_density landing_maximum_sink_rate vehicle_mass wing_area landing_glide_to_stall_ratio cl_max landing_maximum_flare_load_factor : ℝ) : ℝ :=
  (1 / 2) * (((drz_dglidetostallratio gravity atmosphere_density vehicle_mass wing_area
    landing_glide_to_stall_ratio cl_max landing_maximum_flare_load_factor) * (theta
    atmosphere_density landing_maximum_sink_rate vehicle_mass wing_area
    landing_glide_to_stall_ratio cl_max)) + ((rz_2 gravity atmosphere_density vehicle_mass
    wing_area landing_glide_to_stall_ratio cl_max landing_maximum_flare_load_factor) *
    (dtheta_dglidetostallratio atmosphere_density landing_maximum_sink_rate vehicle_mass
    wing_area landing_glide_to_stall_ratio cl_max)))

/-- aviary/mission/two_dof/ode/landing_eom.py:400 -/
noncomputable def inter2 (atmosphere_density landing_maximum_sink_rate vehicle_mass wing_area landing_glide_to_stall_ratio cl_max landing_touchdown_sink_rate : ℝ) : ℝ :=
  (1 - ((gamma_touchdown atmosphere_density vehicle_mass wing_area landing_glide_to_stall_ratio
    cl_max landing_touchdown_sink_rate) / (theta atmosphere_density landing_maximum_sink_rate
    vehicle_mass wing_area landing_glide_to_stall_ratio cl_max))) ^ 2

/-- aviary/mission/two_dof/ode/landing_eom.py:401 -/
noncomputable def dinter2_drateofsinkmax (atmosphere_density landing_maximum_sink_rate vehicle_mass wing_area landing_glide_to_stall_ratio cl_max landing_touchdown_sink_rate : ℝ) : ℝ :=
  (((2 * (1 - ((gamma_touchdown atmosphere_density vehicle_mass wing_area
    landing_glide_to_stall_ratio cl_max landing_touchdown_sink_rate) / (theta atmosphere_density
    landing_maximum_sink_rate vehicle_mass wing_area landing_glide_to_stall_ratio cl_max)))) *
    (gamma_touchdown atmosphere_density vehicle_mass wing_area landing_glide_to_stall_ratio
    cl_max landing_touchdown_sink_rate)) / ((theta atmosphere_density landing_maximum_sink_rate
    vehicle_mass wing_area landing_glide_to_stall_ratio cl_max) ^ 2)) * (dtheta_drateofsinkmax
    atmosphere_density landing_maximum_sink_rate vehicle_mass wing_area
    landing_glide_to_stall_ratio cl_max)

/-- aviary/mission/two_dof/ode/landing_eom.py:404 -/
noncomputable def dinter2_dweight (atmosphere_density landing_maximum_sink_rate vehicle_mass wing_area landing_glide_to_stall_ratio cl_max landing_touchdown_sink_rate : ℝ) : ℝ :=
  (((-2) * (1 - ((gamma_touchdown atmosphere_density vehicle_mass wing_area
    landing_glide_to_stall_ratio cl_max landing_touchdown_sink_rate) / (theta atmosphere_density
    landing_maximum_sink_rate vehicle_mass wing_area landing_glide_to_stall_ratio cl_max)))) *
    (((theta atmosphere_density landing_maximum_sink_rate vehicle_mass wing_area
    landing_glide_to_stall_ratio cl_max) * (dgammatd_dweight atmosphere_density vehicle_mass
    wing_area landing_glide_to_stall_ratio cl_max landing_touchdown_sink_rate)) -
    ((gamma_touchdown atmosphere_density vehicle_mass wing_area landing_glide_to_stall_ratio
    cl_max landing_touchdown_sink_rate) * (dtheta_dweight atmosphere_density
    landing_maximum_sink_rate vehicle_mass wing_area landing_glide_to_stall_ratio cl_max)))) /
    ((theta atmosphere_density landing_maximum_sink_rate vehicle_mass wing_area
    landing_glide_to_stall_ratio cl_max) ^ 2)

/-- aviary/mission/two_dof/ode/landing_eom.py:410 -/
noncomputable def dinter2_dwingarea (atmosphere_density landing_maximum_sink_rate vehicle_mass wing_area landing_glide_to_stall_ratio cl_max landing_touchdown_sink_rate : ℝ) : ℝ :=
  (((-2) * (1 - ((gamma_touchdown atmosphere_density vehicle_mass wing_area
    landing_glide_to_stall_ratio cl_max landing_touchdown_sink_rate) / (theta atmosphere_density
    landing_maximum_sink_rate vehicle_mass wing_area landing_glide_to_stall_ratio cl_max)))) *
    (((theta atmosphere_density landing_maximum_sink_rate vehicle_mass wing_area
    landing_glide_to_stall_ratio cl_max) * (dgammatd_dwingarea atmosphere_density vehicle_mass
    wing_area landing_glide_to_stall_ratio cl_max landing_touchdown_sink_rate)) -
    ((gamma_touchdown atmosphere_density vehicle_mass wing_area landing_glide_to_stall_ratio
    cl_max landing_touchdown_sink_rate) * (dtheta_dwingarea atmosphere_density
    landing_maximum_sink_rate vehicle_mass wing_area landing_glide_to_stall_ratio cl_max)))) /
    ((theta atmosphere_density landing_maximum_sink_rate vehicle_mass wing_area
    landing_glide_to_stall_ratio cl_max) ^ 2)

/-- aviary/mission/two_dof/ode/landing_eom.py:416 -/
noncomputable def dinter2_dclmax (atmosphere_density landing_maximum_sink_rate vehicle_mass wing_area landing_glide_to_stall_ratio cl_max landing_touchdown_sink_rate : ℝ) : ℝ :=
  (((-2) * (1 - ((gamma_touchdown atmosphere_density vehicle_mass wing_area
    landing_glide_to_stall_ratio cl_max landing_touchdown_sink_rate) / (theta atmosphere_density
    landing_maximum_sink_rate vehicle_mass wing_area landing_glide_to_stall_ratio cl_max)))) *
    (((theta atmosphere_density landing_maximum_sink_rate vehicle_mass wing_area
    landing_glide_to_stall_ratio cl_max) * (dgammatd_dclmax atmosphere_density vehicle_mass
    wing_area landing_glide_to_stall_ratio cl_max landing_touchdown_sink_rate)) -
    ((gamma_touchdown atmosphere_density vehicle_mass wing_area landing_glide_to_stall_ratio
    cl_max landing_touchdown_sink_rate) * (dtheta_dclmax atmosphere_density
    landing_maximum_sink_rate vehicle_mass wing_area landing_glide_to_stall_ratio cl_max)))) /
    ((theta atmosphere_density landing_maximum_sink_rate vehicle_mass wing_area
    landing_glide_to_stall_ratio cl_max) ^ 2)

/-- aviary/mission/two_dof/ode/landing_eom.py:422 -/
noncomputable def dinter2_drhoapp (atmosphere_density landing_maximum_sink_rate vehicle_mass wing_area landing_glide_to_stall_ratio cl_max landing_touchdown_sink_rate : ℝ) : ℝ :=
  (((-2) * (1 - ((gamma_touchdown atmosphere_density vehicle_mass wing_area
    landing_glide_to_stall_ratio cl_max landing_touchdown_sink_rate) / (theta atmosphere_density
    landing_maximum_sink_rate vehicle_mass wing_area landing_glide_to_stall_ratio cl_max)))) *
    (((theta atmosphere_density landing_maximum_sink_rate vehicle_mass wing_area
    landing_glide_to_stall_ratio cl_max) * (dgammatd_drhoapp atmosphere_density vehicle_mass
    wing_area landing_glide_to_stall_ratio cl_max landing_touchdown_sink_rate)) -
    ((gamma_touchdown atmosphere_density vehicle_mass wing_area landing_glide_to_stall_ratio
    cl_max landing_touchdown_sink_rate) * (dtheta_drhoapp atmosphere_density
    landing_maximum_sink_rate vehicle_mass wing_area landing_glide_to_stall_ratio cl_max)))) /
    ((theta atmosphere_density landing_maximum_sink_rate vehicle_mass wing_area
    landing_glide_to_stall_ratio cl_max) ^ 2)

/-- aviary/mission/two_dof/ode/landing_eom.py:428 -/
noncomputable def dinter2_dglidetostallratio (atmosphere_density landing_maximum_sink_rate vehicle_mass wing_area landing_glide_to_stall_ratio cl_max landing_touchdown_sink_rate : ℝ) : ℝ :=
  (((-2) * (1 - ((gamma_touchdown atmosphere_density vehicle_mass wing_area
    landing_glide_to_stall_ratio cl_max landing_touchdown_sink_rate) / (theta atmosphere_density
    landing_maximum_sink_rate vehicle_mass wing_area landing_glide_to_stall_ratio cl_max)))) *
    (((theta atmosphere_density landing_maximum_sink_rate vehicle_mass wing_area
    landing_glide_to_stall_ratio cl_max) * (dgammatd_dglidetostallratio atmosphere_density
    vehicle_mass wing_area landing_glide_to_stall_ratio cl_max landing_touchdown_sink_rate)) -
    ((gamma_touchdown atmosphere_density vehicle_mass wing_area landing_glide_to_stall_ratio
    cl_max landing_touchdown_sink_rate) * (dtheta_dglidetostallratio atmosphere_density
    landing_maximum_sink_rate vehicle_mass wing_area landing_glide_to_stall_ratio cl_max)))) /
    ((theta atmosphere_density landing_maximum_sink_rate vehicle_mass wing_area
    landing_glide_to_stall_ratio cl_max) ^ 2)

/-- aviary/mission/two_dof/ode/landing_eom.py:434 -/
noncomputable def dinter2_drateofsinktd (atmosphere_density landing_maximum_sink_rate vehicle_mass wing_area landing_glide_to_stall_ratio cl_max landing_touchdown_sink_rate : ℝ) : ℝ :=
  (((-2) * (1 - ((gamma_touchdown atmosphere_density vehicle_mass wing_area
    landing_glide_to_stall_ratio cl_max landing_touchdown_sink_rate) / (theta atmosphere_density
    landing_maximum_sink_rate vehicle_mass wing_area landing_glide_to_stall_ratio cl_max)))) *
    (dgammatd_drateofsinktd atmosphere_density vehicle_mass wing_area
    landing_glide_to_stall_ratio cl_max)) / (theta atmosphere_density landing_maximum_sink_rate
    vehicle_mass wing_area landing_glide_to_stall_ratio cl_max)

/-- Output `flare_alt` of `GlideConditionComponent.compute`, aviary/mission/two_dof/ode/landing_eom.py:224 -/
noncomputable def out_flare_alt (gravity atmosphere_density landing_maximum_sink_rate vehicle_mass wing_area landing_glide_to_stall_ratio cl_max landing_maximum_flare_load_factor landing_touchdown_sink_rate : ℝ) : ℝ :=
  flare_alt gravity atmosphere_density landing_maximum_sink_rate vehicle_mass wing_area
    landing_glide_to_stall_ratio cl_max landing_maximum_flare_load_factor
    landing_touchdown_sink_rate

/-- Output `landing_initial_velocity` of `GlideConditionComponent.compute`, aviary/mission/two_dof/ode/landing_eom.py:225 -/
noncomputable def out_landing_initial_velocity (atmosphere_density vehicle_mass wing_area landing_glide_to_stall_ratio cl_max : ℝ) : ℝ :=
  tas_glide atmosphere_density vehicle_mass wing_area landing_glide_to_stall_ratio cl_max

/-- Output `landing_stall_velocity` of `GlideConditionComponent.compute`, aviary/mission/two_dof/ode/landing_eom.py:226 -/
noncomputable def out_landing_stall_velocity (atmosphere_density vehicle_mass wing_area cl_max : ℝ) : ℝ :=
  tas_stall atmosphere_density vehicle_mass wing_area cl_max

/-- Output `tas_touchdown` of `GlideConditionComponent.compute`, aviary/mission/two_dof/ode/landing_eom.py:227 -/
noncomputable def out_tas_touchdown (atmosphere_density vehicle_mass wing_area landing_glide_to_stall_ratio cl_max : ℝ) : ℝ :=
  tas_touchdown atmosphere_density vehicle_mass wing_area landing_glide_to_stall_ratio cl_max

/-- Output `density_ratio` of `GlideConditionComponent.compute`, aviary/mission/two_dof/ode/landing_eom.py:228 -/
noncomputable def out_density_ratio (sea_level_density atmosphere_density : ℝ) : ℝ :=
  atmosphere_density / sea_level_density

/-- Output `wing_loading_land` of `GlideConditionComponent.compute`, aviary/mission/two_dof/ode/landing_eom.py:229 -/
noncomputable def out_wing_loading_land (vehicle_mass wing_area : ℝ) : ℝ :=
  wing_loading_land vehicle_mass wing_area

/-- Output `glide_distance` of `GlideConditionComponent.compute`, aviary/mission/two_dof/ode/landing_eom.py:230 -/
noncomputable def out_glide_distance (atmosphere_density landing_maximum_sink_rate vehicle_mass wing_area landing_glide_to_stall_ratio cl_max landing_initial_altitude : ℝ) : ℝ :=
  glide_distance atmosphere_density landing_maximum_sink_rate vehicle_mass wing_area
    landing_glide_to_stall_ratio cl_max landing_initial_altitude

/-- Output `tr_distance` of `GlideConditionComponent.compute`, aviary/mission/two_dof/ode/landing_eom.py:231 -/
noncomputable def out_tr_distance (gravity atmosphere_density landing_maximum_sink_rate vehicle_mass wing_area landing_glide_to_stall_ratio cl_max landing_maximum_flare_load_factor landing_touchdown_sink_rate : ℝ) : ℝ :=
  tr_distance gravity atmosphere_density landing_maximum_sink_rate vehicle_mass wing_area
    landing_glide_to_stall_ratio cl_max landing_maximum_flare_load_factor
    landing_touchdown_sink_rate

/-- Output `delay_distance` of `GlideConditionComponent.compute`, aviary/mission/two_dof/ode/landing_eom.py:232 -/
noncomputable def out_delay_distance (atmosphere_density vehicle_mass wing_area landing_glide_to_stall_ratio cl_max landing_braking_delay : ℝ) : ℝ :=
  delay_distance atmosphere_density vehicle_mass wing_area landing_glide_to_stall_ratio cl_max
    landing_braking_delay

/-- Output `theta` of `GlideConditionComponent.compute`, aviary/mission/two_dof/ode/landing_eom.py:233 -/
noncomputable def out_theta (atmosphere_density landing_maximum_sink_rate vehicle_mass wing_area landing_glide_to_stall_ratio cl_max : ℝ) : ℝ :=
  theta atmosphere_density landing_maximum_sink_rate vehicle_mass wing_area
    landing_glide_to_stall_ratio cl_max

/-- Partial of `landing_initial_velocity` with respect to `vehicle_mass` as set by `GlideConditionComponent`, aviary/mission/two_dof/ode/landing_eom.py:276 -/
noncomputable def J_landing_initial_velocity__vehicle_mass (atmosphere_density vehicle_mass wing_area landing_glide_to_stall_ratio cl_max : ℝ) : ℝ :=
  dtasglide_dweight atmosphere_density vehicle_mass wing_area landing_glide_to_stall_ratio
    cl_max

/-- Partial of `landing_initial_velocity` with respect to `wing_area` as set by `GlideConditionComponent`, aviary/mission/two_dof/ode/landing_eom.py:279 -/
noncomputable def J_landing_initial_velocity__wing_area (atmosphere_density vehicle_mass wing_area landing_glide_to_stall_ratio cl_max : ℝ) : ℝ :=
  dtasglide_dwingarea atmosphere_density vehicle_mass wing_area landing_glide_to_stall_ratio
    cl_max

/-- Partial of `landing_initial_velocity` with respect to `cl_max` as set by `GlideConditionComponent`, aviary/mission/two_dof/ode/landing_eom.py:282 -/
noncomputable def J_landing_initial_velocity__cl_max (atmosphere_density vehicle_mass wing_area landing_glide_to_stall_ratio cl_max : ℝ) : ℝ :=
  dtasglide_dclmax atmosphere_density vehicle_mass wing_area landing_glide_to_stall_ratio cl_max

/-- Partial of `landing_initial_velocity` with respect to `atmosphere_density` as set by `GlideConditionComponent`, aviary/mission/two_dof/ode/landing_eom.py:285 -/
noncomputable def J_landing_initial_velocity__atmosphere_density (atmosphere_density vehicle_mass wing_area landing_glide_to_stall_ratio cl_max : ℝ) : ℝ :=
  dtasglide_drhoapp atmosphere_density vehicle_mass wing_area landing_glide_to_stall_ratio
    cl_max

/-- Partial of `landing_initial_velocity` with respect to `landing_glide_to_stall_ratio` as set by `GlideConditionComponent`, aviary/mission/two_dof/ode/landing_eom.py:288 -/
noncomputable def J_landing_initial_velocity__landing_glide_to_stall_ratio (atmosphere_density vehicle_mass wing_area cl_max : ℝ) : ℝ :=
  tas_stall atmosphere_density vehicle_mass wing_area cl_max

/-- Partial of `landing_stall_velocity` with respect to `vehicle_mass` as set by `GlideConditionComponent`, aviary/mission/two_dof/ode/landing_eom.py:290 -/
noncomputable def J_landing_stall_velocity__vehicle_mass (atmosphere_density vehicle_mass wing_area cl_max : ℝ) : ℝ :=
  dtasstall_dweight atmosphere_density vehicle_mass wing_area cl_max

/-- Partial of `landing_stall_velocity` with respect to `wing_area` as set by `GlideConditionComponent`, aviary/mission/two_dof/ode/landing_eom.py:293 -/
noncomputable def J_landing_stall_velocity__wing_area (atmosphere_density vehicle_mass wing_area cl_max : ℝ) : ℝ :=
  dtasstall_dwingarea atmosphere_density vehicle_mass wing_area cl_max

/-- Partial of `landing_stall_velocity` with respect to `cl_max` as set by `GlideConditionComponent`, aviary/mission/two_dof/ode/landing_eom.py:294 -/
noncomputable def J_landing_stall_velocity__cl_max (atmosphere_density vehicle_mass wing_area cl_max : ℝ) : ℝ :=
  dtasstall_dclmax atmosphere_density vehicle_mass wing_area cl_max

/-- Partial of `landing_stall_velocity` with respect to `atmosphere_density` as set by `GlideConditionComponent`, aviary/mission/two_dof/ode/landing_eom.py:295 -/
noncomputable def J_landing_stall_velocity__atmosphere_density (atmosphere_density vehicle_mass wing_area cl_max : ℝ) : ℝ :=
  dtasstall_drhoapp atmosphere_density vehicle_mass wing_area cl_max

/-- Partial of `tas_touchdown` with respect to `landing_glide_to_stall_ratio` as set by `GlideConditionComponent`, aviary/mission/two_dof/ode/landing_eom.py:297 -/
noncomputable def J_tas_touchdown__landing_glide_to_stall_ratio (atmosphere_density vehicle_mass wing_area cl_max : ℝ) : ℝ :=
  dtastd_dglidetostallratio atmosphere_density vehicle_mass wing_area cl_max

/-- Partial of `tas_touchdown` with respect to `vehicle_mass` as set by `GlideConditionComponent`, aviary/mission/two_dof/ode/landing_eom.py:300 -/
noncomputable def J_tas_touchdown__vehicle_mass (atmosphere_density vehicle_mass wing_area landing_glide_to_stall_ratio cl_max : ℝ) : ℝ :=
  dtastd_dweight atmosphere_density vehicle_mass wing_area landing_glide_to_stall_ratio cl_max

/-- Partial of `tas_touchdown` with respect to `wing_area` as set by `GlideConditionComponent`, aviary/mission/two_dof/ode/landing_eom.py:301 -/
noncomputable def J_tas_touchdown__wing_area (atmosphere_density vehicle_mass wing_area landing_glide_to_stall_ratio cl_max : ℝ) : ℝ :=
  dtastd_dwingarea atmosphere_density vehicle_mass wing_area landing_glide_to_stall_ratio cl_max

/-- Partial of `tas_touchdown` with respect to `cl_max` as set by `GlideConditionComponent`, aviary/mission/two_dof/ode/landing_eom.py:304 -/
noncomputable def J_tas_touchdown__cl_max (atmosphere_density vehicle_mass wing_area landing_glide_to_stall_ratio cl_max : ℝ) : ℝ :=
  dtastd_dclmax atmosphere_density vehicle_mass wing_area landing_glide_to_stall_ratio cl_max

/-- Partial of `tas_touchdown` with respect to `atmosphere_density` as set by `GlideConditionComponent`, aviary/mission/two_dof/ode/landing_eom.py:305 -/
noncomputable def J_tas_touchdown__atmosphere_density (atmosphere_density vehicle_mass wing_area landing_glide_to_stall_ratio cl_max : ℝ) : ℝ :=
  dtastd_drhoapp atmosphere_density vehicle_mass wing_area landing_glide_to_stall_ratio cl_max

/-- Partial of `density_ratio` with respect to `atmosphere_density` as set by `GlideConditionComponent`, aviary/mission/two_dof/ode/landing_eom.py:310 -/
noncomputable def J_density_ratio__atmosphere_density (sea_level_density : ℝ) : ℝ :=
  1 / sea_level_density

/-- Partial of `wing_loading_land` with respect to `vehicle_mass` as set by `GlideConditionComponent`, aviary/mission/two_dof/ode/landing_eom.py:312 -/
noncomputable def J_wing_loading_land__vehicle_mass (wing_area : ℝ) : ℝ := 1 / wing_area

/-- Partial of `wing_loading_land` with respect to `wing_area` as set by `GlideConditionComponent`, aviary/mission/two_dof/ode/landing_eom.py:313 -/
noncomputable def J_wing_loading_land__wing_area (vehicle_mass wing_area : ℝ) : ℝ :=
  (-vehicle_mass) / (wing_area ^ 2)

/-- Partial of `theta` with respect to `landing_maximum_sink_rate` as set by `GlideConditionComponent`, aviary/mission/two_dof/ode/landing_eom.py:317 -/
noncomputable def J_theta__landing_maximum_sink_rate (atmosphere_density landing_maximum_sink_rate vehicle_mass wing_area landing_glide_to_stall_ratio cl_max : ℝ) : ℝ :=
  dtheta_drateofsinkmax atmosphere_density landing_maximum_sink_rate vehicle_mass wing_area
    landing_glide_to_stall_ratio cl_max

/-- Partial of `theta` with respect to `vehicle_mass` as set by `GlideConditionComponent`, aviary/mission/two_dof/ode/landing_eom.py:320 -/
noncomputable def J_theta__vehicle_mass (atmosphere_density landing_maximum_sink_rate vehicle_mass wing_area landing_glide_to_stall_ratio cl_max : ℝ) : ℝ :=
  dtheta_dweight atmosphere_density landing_maximum_sink_rate vehicle_mass wing_area
    landing_glide_to_stall_ratio cl_max

/-- Partial of `theta` with respect to `wing_area` as set by `GlideConditionComponent`, aviary/mission/two_dof/ode/landing_eom.py:321 -/
noncomputable def J_theta__wing_area (atmosphere_density landing_maximum_sink_rate vehicle_mass wing_area landing_glide_to_stall_ratio cl_max : ℝ) : ℝ :=
  dtheta_dwingarea atmosphere_density landing_maximum_sink_rate vehicle_mass wing_area
    landing_glide_to_stall_ratio cl_max

/-- Partial of `theta` with respect to `cl_max` as set by `GlideConditionComponent`, aviary/mission/two_dof/ode/landing_eom.py:326 -/
noncomputable def J_theta__cl_max (atmosphere_density landing_maximum_sink_rate vehicle_mass wing_area landing_glide_to_stall_ratio cl_max : ℝ) : ℝ :=
  dtheta_dclmax atmosphere_density landing_maximum_sink_rate vehicle_mass wing_area
    landing_glide_to_stall_ratio cl_max

/-- Partial of `theta` with respect to `atmosphere_density` as set by `GlideConditionComponent`, aviary/mission/two_dof/ode/landing_eom.py:331 -/
noncomputable def J_theta__atmosphere_density (atmosphere_density landing_maximum_sink_rate vehicle_mass wing_area landing_glide_to_stall_ratio cl_max : ℝ) : ℝ :=
  dtheta_drhoapp atmosphere_density landing_maximum_sink_rate vehicle_mass wing_area
    landing_glide_to_stall_ratio cl_max

/-- Partial of `theta` with respect to `landing_glide_to_stall_ratio` as set by `GlideConditionComponent`, aviary/mission/two_dof/ode/landing_eom.py:336 -/
noncomputable def J_theta__landing_glide_to_stall_ratio (atmosphere_density landing_maximum_sink_rate vehicle_mass wing_area landing_glide_to_stall_ratio cl_max : ℝ) : ℝ :=
  dtheta_dglidetostallratio atmosphere_density landing_maximum_sink_rate vehicle_mass wing_area
    landing_glide_to_stall_ratio cl_max

/-- Partial of `glide_distance` with respect to `landing_initial_altitude` as set by `GlideConditionComponent`, aviary/mission/two_dof/ode/landing_eom.py:344 -/
noncomputable def J_glide_distance__landing_initial_altitude (atmosphere_density landing_maximum_sink_rate vehicle_mass wing_area landing_glide_to_stall_ratio cl_max : ℝ) : ℝ :=
  1 / (tan (theta atmosphere_density landing_maximum_sink_rate vehicle_mass wing_area
    landing_glide_to_stall_ratio cl_max))

/-- Partial of `glide_distance` with respect to `landing_maximum_sink_rate` as set by `GlideConditionComponent`, aviary/mission/two_dof/ode/landing_eom.py:345 -/
noncomputable def J_glide_distance__landing_maximum_sink_rate (atmosphere_density landing_maximum_sink_rate vehicle_mass wing_area landing_glide_to_stall_ratio cl_max landing_initial_altitude : ℝ) : ℝ :=
  (((-landing_initial_altitude) / ((tan (theta atmosphere_density landing_maximum_sink_rate
    vehicle_mass wing_area landing_glide_to_stall_ratio cl_max)) ^ 2)) * ((1 / (cos (theta
    atmosphere_density landing_maximum_sink_rate vehicle_mass wing_area
    landing_glide_to_stall_ratio cl_max))) ^ 2)) * (dtheta_drateofsinkmax atmosphere_density
    landing_maximum_sink_rate vehicle_mass wing_area landing_glide_to_stall_ratio cl_max)

/-- Partial of `glide_distance` with respect to `vehicle_mass` as set by `GlideConditionComponent`, aviary/mission/two_dof/ode/landing_eom.py:348 -/
noncomputable def J_glide_distance__vehicle_mass (atmosphere_density landing_maximum_sink_rate vehicle_mass wing_area landing_glide_to_stall_ratio cl_max landing_initial_altitude : ℝ) : ℝ :=
  (((-landing_initial_altitude) / ((tan (theta atmosphere_density landing_maximum_sink_rate
    vehicle_mass wing_area landing_glide_to_stall_ratio cl_max)) ^ 2)) * ((1 / (cos (theta
    atmosphere_density landing_maximum_sink_rate vehicle_mass wing_area
    landing_glide_to_stall_ratio cl_max))) ^ 2)) * (dtheta_dweight atmosphere_density
    landing_maximum_sink_rate vehicle_mass wing_area landing_glide_to_stall_ratio cl_max)

/-- Partial of `glide_distance` with respect to `wing_area` as set by `GlideConditionComponent`, aviary/mission/two_dof/ode/landing_eom.py:355 -/
noncomputable def J_glide_distance__wing_area (atmosphere_density landing_maximum_sink_rate vehicle_mass wing_area landing_glide_to_stall_ratio cl_max landing_initial_altitude : ℝ) : ℝ :=
  (((-landing_initial_altitude) / ((tan (theta atmosphere_density landing_maximum_sink_rate
    vehicle_mass wing_area landing_glide_to_stall_ratio cl_max)) ^ 2)) * ((1 / (cos (theta
    atmosphere_density landing_maximum_sink_rate vehicle_mass wing_area
    landing_glide_to_stall_ratio cl_max))) ^ 2)) * (dtheta_dwingarea atmosphere_density
    landing_maximum_sink_rate vehicle_mass wing_area landing_glide_to_stall_ratio cl_max)

/-- Partial of `glide_distance` with respect to `cl_max` as set by `GlideConditionComponent`, aviary/mission/two_dof/ode/landing_eom.py:358 -/
noncomputable def J_glide_distance__cl_max (atmosphere_density landing_maximum_sink_rate vehicle_mass wing_area landing_glide_to_stall_ratio cl_max landing_initial_altitude : ℝ) : ℝ :=
  (((-landing_initial_altitude) / ((tan (theta atmosphere_density landing_maximum_sink_rate
    vehicle_mass wing_area landing_glide_to_stall_ratio cl_max)) ^ 2)) * ((1 / (cos (theta
    atmosphere_density landing_maximum_sink_rate vehicle_mass wing_area
    landing_glide_to_stall_ratio cl_max))) ^ 2)) * (dtheta_dclmax atmosphere_density
    landing_maximum_sink_rate vehicle_mass wing_area landing_glide_to_stall_ratio cl_max)

/-- Partial of `glide_distance` with respect to `atmosphere_density` as set by `GlideConditionComponent`, aviary/mission/two_dof/ode/landing_eom.py:361 -/
noncomputable def J_glide_distance__atmosphere_density (atmosphere_density landing_maximum_sink_rate vehicle_mass wing_area landing_glide_to_stall_ratio cl_max landing_initial_altitude : ℝ) : ℝ :=
  (((-landing_initial_altitude) / ((tan (theta atmosphere_density landing_maximum_sink_rate
    vehicle_mass wing_area landing_glide_to_stall_ratio cl_max)) ^ 2)) * ((1 / (cos (theta
    atmosphere_density landing_maximum_sink_rate vehicle_mass wing_area
    landing_glide_to_stall_ratio cl_max))) ^ 2)) * (dtheta_drhoapp atmosphere_density
    landing_maximum_sink_rate vehicle_mass wing_area landing_glide_to_stall_ratio cl_max)

/-- Partial of `glide_distance` with respect to `landing_glide_to_stall_ratio` as set by `GlideConditionComponent`, aviary/mission/two_dof/ode/landing_eom.py:364 -/
noncomputable def J_glide_distance__landing_glide_to_stall_ratio (atmosphere_density landing_maximum_sink_rate vehicle_mass wing_area landing_glide_to_stall_ratio cl_max landing_initial_altitude : ℝ) : ℝ :=
  (((-landing_initial_altitude) / ((tan (theta atmosphere_density landing_maximum_sink_rate
    vehicle_mass wing_area landing_glide_to_stall_ratio cl_max)) ^ 2)) * ((1 / (cos (theta
    atmosphere_density landing_maximum_sink_rate vehicle_mass wing_area
    landing_glide_to_stall_ratio cl_max))) ^ 2)) * (dtheta_dglidetostallratio atmosphere_density
    landing_maximum_sink_rate vehicle_mass wing_area landing_glide_to_stall_ratio cl_max)

/-- Partial of `tr_distance` with respect to `landing_maximum_flare_load_factor` as set by `GlideConditionComponent`, aviary/mission/two_dof/ode/landing_eom.py:438 -/
noncomputable def J_tr_distance__landing_maximum_flare_load_factor (gravity atmosphere_density landing_maximum_sink_rate vehicle_mass wing_area landing_glide_to_stall_ratio cl_max landing_maximum_flare_load_factor landing_touchdown_sink_rate : ℝ) : ℝ :=
  (dinter1_dlandingflareloadfactor gravity atmosphere_density landing_maximum_sink_rate
    vehicle_mass wing_area landing_glide_to_stall_ratio cl_max
    landing_maximum_flare_load_factor) * (inter2 atmosphere_density landing_maximum_sink_rate
    vehicle_mass wing_area landing_glide_to_stall_ratio cl_max landing_touchdown_sink_rate)

/-- Partial of `tr_distance` with respect to `landing_maximum_sink_rate` as set by `GlideConditionComponent`, aviary/mission/two_dof/ode/landing_eom.py:441 -/
noncomputable def J_tr_distance__landing_maximum_sink_rate (gravity atmosphere_density landing_maximum_sink_rate vehicle_mass wing_area landing_glide_to_stall_ratio cl_max landing_maximum_flare_load_factor landing_touchdown_sink_rate : ℝ) : ℝ :=
  ((dinter1_drateofsinkmax gravity atmosphere_density landing_maximum_sink_rate vehicle_mass
    wing_area landing_glide_to_stall_ratio cl_max landing_maximum_flare_load_factor) * (inter2
    atmosphere_density landing_maximum_sink_rate vehicle_mass wing_area
    landing_glide_to_stall_ratio cl_max landing_touchdown_sink_rate)) + ((inter1 gravity
    atmosphere_density landing_maximum_sink_rate vehicle_mass wing_area
    landing_glide_to_stall_ratio cl_max landing_maximum_flare_load_factor) *
    (dinter2_drateofsinkmax atmosphere_density landing_maximum_sink_rate vehicle_mass wing_area
    landing_glide_to_stall_ratio cl_max landing_touchdown_sink_rate))

/-- Partial of `tr_distance` with respect to `vehicle_mass` as set by `GlideConditionComponent`, aviary/mission/two_dof/ode/landing_eom.py:444 -/
noncomputable def J_tr_distance__vehicle_mass (gravity atmosphere_density landing_maximum_sink_rate vehicle_mass wing_area landing_glide_to_stall_ratio cl_max landing_maximum_flare_load_factor landing_touchdown_sink_rate : ℝ) : ℝ :=
  ((dinter1_dweight gravity atmosphere_density landing_maximum_sink_rate vehicle_mass wing_area
    landing_glide_to_stall_ratio cl_max landing_maximum_flare_load_factor) * (inter2
    atmosphere_density landing_maximum_sink_rate vehicle_mass wing_area
    landing_glide_to_stall_ratio cl_max landing_touchdown_sink_rate)) + ((inter1 gravity
    atmosphere_density landing_maximum_sink_rate vehicle_mass wing_area
    landing_glide_to_stall_ratio cl_max landing_maximum_flare_load_factor) * (dinter2_dweight
    atmosphere_density landing_maximum_sink_rate vehicle_mass wing_area
    landing_glide_to_stall_ratio cl_max landing_touchdown_sink_rate))

/-- Partial of `tr_distance` with respect to `wing_area` as set by `GlideConditionComponent`, aviary/mission/two_dof/ode/landing_eom.py:447 -/
noncomputable def J_tr_distance__wing_area (gravity atmosphere_density landing_maximum_sink_rate vehicle_mass wing_area landing_glide_to_stall_ratio cl_max landing_maximum_flare_load_factor landing_touchdown_sink_rate : ℝ) : ℝ :=
  ((dinter1_dwingarea gravity atmosphere_density landing_maximum_sink_rate vehicle_mass
    wing_area landing_glide_to_stall_ratio cl_max landing_maximum_flare_load_factor) * (inter2
    atmosphere_density landing_maximum_sink_rate vehicle_mass wing_area
    landing_glide_to_stall_ratio cl_max landing_touchdown_sink_rate)) + ((inter1 gravity
    atmosphere_density landing_maximum_sink_rate vehicle_mass wing_area
    landing_glide_to_stall_ratio cl_max landing_maximum_flare_load_factor) * (dinter2_dwingarea
    atmosphere_density landing_maximum_sink_rate vehicle_mass wing_area
    landing_glide_to_stall_ratio cl_max landing_touchdown_sink_rate))

/-- Partial of `tr_distance` with respect to `cl_max` as set by `GlideConditionComponent`, aviary/mission/two_dof/ode/landing_eom.py:450 -/
noncomputable def J_tr_distance__cl_max (gravity atmosphere_density landing_maximum_sink_rate vehicle_mass wing_area landing_glide_to_stall_ratio cl_max landing_maximum_flare_load_factor landing_touchdown_sink_rate : ℝ) : ℝ :=
  ((dinter1_dclmax gravity atmosphere_density landing_maximum_sink_rate vehicle_mass wing_area
    landing_glide_to_stall_ratio cl_max landing_maximum_flare_load_factor) * (inter2
    atmosphere_density landing_maximum_sink_rate vehicle_mass wing_area
    landing_glide_to_stall_ratio cl_max landing_touchdown_sink_rate)) + ((inter1 gravity
    atmosphere_density landing_maximum_sink_rate vehicle_mass wing_area
    landing_glide_to_stall_ratio cl_max landing_maximum_flare_load_factor) * (dinter2_dclmax
    atmosphere_density landing_maximum_sink_rate vehicle_mass wing_area
    landing_glide_to_stall_ratio cl_max landing_touchdown_sink_rate))

/-- Partial of `tr_distance` with respect to `atmosphere_density` as set by `GlideConditionComponent`, aviary/mission/two_dof/ode/landing_eom.py:451 -/
noncomputable def J_tr_distance__atmosphere_density (gravity atmosphere_density landing_maximum_sink_rate vehicle_mass wing_area landing_glide_to_stall_ratio cl_max landing_maximum_flare_load_factor landing_touchdown_sink_rate : ℝ) : ℝ :=
  ((dinter1_drhoapp gravity atmosphere_density landing_maximum_sink_rate vehicle_mass wing_area
    landing_glide_to_stall_ratio cl_max landing_maximum_flare_load_factor) * (inter2
    atmosphere_density landing_maximum_sink_rate vehicle_mass wing_area
    landing_glide_to_stall_ratio cl_max landing_touchdown_sink_rate)) + ((inter1 gravity
    atmosphere_density landing_maximum_sink_rate vehicle_mass wing_area
    landing_glide_to_stall_ratio cl_max landing_maximum_flare_load_factor) * (dinter2_drhoapp
    atmosphere_density landing_maximum_sink_rate vehicle_mass wing_area
    landing_glide_to_stall_ratio cl_max landing_touchdown_sink_rate))

/-- Partial of `tr_distance` with respect to `landing_glide_to_stall_ratio` as set by `GlideConditionComponent`, aviary/mission/two_dof/ode/landing_eom.py:454 -/
noncomputable def J_tr_distance__landing_glide_to_stall_ratio (gravity atmosphere_density landing_maximum_sink_rate vehicle_mass wing_area landing_glide_to_stall_ratio cl_max landing_maximum_flare_load_factor landing_touchdown_sink_rate : ℝ) : ℝ :=
  ((dinter1_dglidetostallratio gravity atmosphere_density landing_maximum_sink_rate vehicle_mass
    wing_area landing_glide_to_stall_ratio cl_max landing_maximum_flare_load_factor) * (inter2
    atmosphere_density landing_maximum_sink_rate vehicle_mass wing_area
    landing_glide_to_stall_ratio cl_max landing_touchdown_sink_rate)) + ((inter1 gravity
    atmosphere_density landing_maximum_sink_rate vehicle_mass wing_area
    landing_glide_to_stall_ratio cl_max landing_maximum_flare_load_factor) *
    (dinter2_dglidetostallratio atmosphere_density landing_maximum_sink_rate vehicle_mass
    wing_area landing_glide_to_stall_ratio cl_max landing_touchdown_sink_rate))

/-- Partial of `tr_distance` with respect to `landing_touchdown_sink_rate` as set by `GlideConditionComponent`, aviary/mission/two_dof/ode/landing_eom.py:457 -/
noncomputable def J_tr_distance__landing_touchdown_sink_rate (gravity atmosphere_density landing_maximum_sink_rate vehicle_mass wing_area landing_glide_to_stall_ratio cl_max landing_maximum_flare_load_factor landing_touchdown_sink_rate : ℝ) : ℝ :=
  (inter1 gravity atmosphere_density landing_maximum_sink_rate vehicle_mass wing_area
    landing_glide_to_stall_ratio cl_max landing_maximum_flare_load_factor) *
    (dinter2_drateofsinktd atmosphere_density landing_maximum_sink_rate vehicle_mass wing_area
    landing_glide_to_stall_ratio cl_max landing_touchdown_sink_rate)

/-- Partial of `delay_distance` with respect to `landing_glide_to_stall_ratio` as set by `GlideConditionComponent`, aviary/mission/two_dof/ode/landing_eom.py:459 -/
noncomputable def J_delay_distance__landing_glide_to_stall_ratio (atmosphere_density vehicle_mass wing_area cl_max landing_braking_delay : ℝ) : ℝ :=
  landing_braking_delay * (dtastd_dglidetostallratio atmosphere_density vehicle_mass wing_area
    cl_max)

/-- Partial of `delay_distance` with respect to `vehicle_mass` as set by `GlideConditionComponent`, aviary/mission/two_dof/ode/landing_eom.py:462 -/
noncomputable def J_delay_distance__vehicle_mass (atmosphere_density vehicle_mass wing_area landing_glide_to_stall_ratio cl_max landing_braking_delay : ℝ) : ℝ :=
  landing_braking_delay * (dtastd_dweight atmosphere_density vehicle_mass wing_area
    landing_glide_to_stall_ratio cl_max)

/-- Partial of `delay_distance` with respect to `wing_area` as set by `GlideConditionComponent`, aviary/mission/two_dof/ode/landing_eom.py:463 -/
noncomputable def J_delay_distance__wing_area (atmosphere_density vehicle_mass wing_area landing_glide_to_stall_ratio cl_max landing_braking_delay : ℝ) : ℝ :=
  landing_braking_delay * (dtastd_dwingarea atmosphere_density vehicle_mass wing_area
    landing_glide_to_stall_ratio cl_max)

/-- Partial of `delay_distance` with respect to `cl_max` as set by `GlideConditionComponent`, aviary/mission/two_dof/ode/landing_eom.py:464 -/
noncomputable def J_delay_distance__cl_max (atmosphere_density vehicle_mass wing_area landing_glide_to_stall_ratio cl_max landing_braking_delay : ℝ) : ℝ :=
  landing_braking_delay * (dtastd_dclmax atmosphere_density vehicle_mass wing_area
    landing_glide_to_stall_ratio cl_max)

/-- Partial of `delay_distance` with respect to `atmosphere_density` as set by `GlideConditionComponent`, aviary/mission/two_dof/ode/landing_eom.py:465 -/
noncomputable def J_delay_distance__atmosphere_density (atmosphere_density vehicle_mass wing_area landing_glide_to_stall_ratio cl_max landing_braking_delay : ℝ) : ℝ :=
  landing_braking_delay * (dtastd_drhoapp atmosphere_density vehicle_mass wing_area
    landing_glide_to_stall_ratio cl_max)

/-- Partial of `delay_distance` with respect to `landing_braking_delay` as set by `GlideConditionComponent`, aviary/mission/two_dof/ode/landing_eom.py:466 -/
noncomputable def J_delay_distance__landing_braking_delay (atmosphere_density vehicle_mass wing_area landing_glide_to_stall_ratio cl_max : ℝ) : ℝ :=
  tas_touchdown atmosphere_density vehicle_mass wing_area landing_glide_to_stall_ratio cl_max

/-- Partial of `flare_alt` with respect to `landing_maximum_flare_load_factor` as set by `GlideConditionComponent`, aviary/mission/two_dof/ode/landing_eom.py:467 -/
noncomputable def J_flare_alt__landing_maximum_flare_load_factor (gravity atmosphere_density landing_maximum_sink_rate vehicle_mass wing_area landing_glide_to_stall_ratio cl_max landing_maximum_flare_load_factor landing_touchdown_sink_rate : ℝ) : ℝ :=
  ((((-((tas_glide atmosphere_density vehicle_mass wing_area landing_glide_to_stall_ratio
    cl_max) ^ 2)) * (((theta atmosphere_density landing_maximum_sink_rate vehicle_mass wing_area
    landing_glide_to_stall_ratio cl_max) ^ 2) - ((gamma_touchdown atmosphere_density
    vehicle_mass wing_area landing_glide_to_stall_ratio cl_max landing_touchdown_sink_rate) ^
    2))) / (((2 * gravity) * (landing_maximum_flare_load_factor - 1)) ^ 2)) * 2) * gravity

/-- Partial of `flare_alt` with respect to `landing_touchdown_sink_rate` as set by `GlideConditionComponent`, aviary/mission/two_dof/ode/landing_eom.py:474 -/
noncomputable def J_flare_alt__landing_touchdown_sink_rate (gravity atmosphere_density vehicle_mass wing_area landing_glide_to_stall_ratio cl_max landing_maximum_flare_load_factor landing_touchdown_sink_rate : ℝ) : ℝ :=
  ((((-2) * ((tas_glide atmosphere_density vehicle_mass wing_area landing_glide_to_stall_ratio
    cl_max) ^ 2)) * (gamma_touchdown atmosphere_density vehicle_mass wing_area
    landing_glide_to_stall_ratio cl_max landing_touchdown_sink_rate)) / ((2 * gravity) *
    (landing_maximum_flare_load_factor - 1))) * (dgammatd_drateofsinktd atmosphere_density
    vehicle_mass wing_area landing_glide_to_stall_ratio cl_max)

/-- Partial of `flare_alt` with respect to `landing_maximum_sink_rate` as set by `GlideConditionComponent`, aviary/mission/two_dof/ode/landing_eom.py:481 -/
noncomputable def J_flare_alt__landing_maximum_sink_rate (gravity atmosphere_density landing_maximum_sink_rate vehicle_mass wing_area landing_glide_to_stall_ratio cl_max landing_maximum_flare_load_factor : ℝ) : ℝ :=
  (((2 * ((tas_glide atmosphere_density vehicle_mass wing_area landing_glide_to_stall_ratio
    cl_max) ^ 2)) * (theta atmosphere_density landing_maximum_sink_rate vehicle_mass wing_area
    landing_glide_to_stall_ratio cl_max)) / ((2 * gravity) * (landing_maximum_flare_load_factor
    - 1))) * (dtheta_drateofsinkmax atmosphere_density landing_maximum_sink_rate vehicle_mass
    wing_area landing_glide_to_stall_ratio cl_max)

/-- Partial of `flare_alt` with respect to `vehicle_mass` as set by `GlideConditionComponent`, aviary/mission/two_dof/ode/landing_eom.py:488 -/
noncomputable def J_flare_alt__vehicle_mass (gravity atmosphere_density landing_maximum_sink_rate vehicle_mass wing_area landing_glide_to_stall_ratio cl_max landing_maximum_flare_load_factor landing_touchdown_sink_rate : ℝ) : ℝ :=
  (1 / ((2 * gravity) * (landing_maximum_flare_load_factor - 1))) * ((((2 * (tas_glide
    atmosphere_density vehicle_mass wing_area landing_glide_to_stall_ratio cl_max)) *
    (dtasglide_dweight atmosphere_density vehicle_mass wing_area landing_glide_to_stall_ratio
    cl_max)) * (((theta atmosphere_density landing_maximum_sink_rate vehicle_mass wing_area
    landing_glide_to_stall_ratio cl_max) ^ 2) - ((gamma_touchdown atmosphere_density
    vehicle_mass wing_area landing_glide_to_stall_ratio cl_max landing_touchdown_sink_rate) ^
    2))) + (((tas_glide atmosphere_density vehicle_mass wing_area landing_glide_to_stall_ratio
    cl_max) ^ 2) * (((2 * (theta atmosphere_density landing_maximum_sink_rate vehicle_mass
    wing_area landing_glide_to_stall_ratio cl_max)) * (dtheta_dweight atmosphere_density
    landing_maximum_sink_rate vehicle_mass wing_area landing_glide_to_stall_ratio cl_max)) - ((2
    * (gamma_touchdown atmosphere_density vehicle_mass wing_area landing_glide_to_stall_ratio
    cl_max landing_touchdown_sink_rate)) * (dgammatd_dweight atmosphere_density vehicle_mass
    wing_area landing_glide_to_stall_ratio cl_max landing_touchdown_sink_rate)))))

/-- Partial of `flare_alt` with respect to `wing_area` as set by `GlideConditionComponent`, aviary/mission/two_dof/ode/landing_eom.py:498 -/
noncomputable def J_flare_alt__wing_area (gravity atmosphere_density landing_maximum_sink_rate vehicle_mass wing_area landing_glide_to_stall_ratio cl_max landing_maximum_flare_load_factor landing_touchdown_sink_rate : ℝ) : ℝ :=
  (1 / ((2 * gravity) * (landing_maximum_flare_load_factor - 1))) * ((((2 * (tas_glide
    atmosphere_density vehicle_mass wing_area landing_glide_to_stall_ratio cl_max)) *
    (dtasglide_dwingarea atmosphere_density vehicle_mass wing_area landing_glide_to_stall_ratio
    cl_max)) * (((theta atmosphere_density landing_maximum_sink_rate vehicle_mass wing_area
    landing_glide_to_stall_ratio cl_max) ^ 2) - ((gamma_touchdown atmosphere_density
    vehicle_mass wing_area landing_glide_to_stall_ratio cl_max landing_touchdown_sink_rate) ^
    2))) + (((tas_glide atmosphere_density vehicle_mass wing_area landing_glide_to_stall_ratio
    cl_max) ^ 2) * (((2 * (theta atmosphere_density landing_maximum_sink_rate vehicle_mass
    wing_area landing_glide_to_stall_ratio cl_max)) * (dtheta_dwingarea atmosphere_density
    landing_maximum_sink_rate vehicle_mass wing_area landing_glide_to_stall_ratio cl_max)) - ((2
    * (gamma_touchdown atmosphere_density vehicle_mass wing_area landing_glide_to_stall_ratio
    cl_max landing_touchdown_sink_rate)) * (dgammatd_dwingarea atmosphere_density vehicle_mass
    wing_area landing_glide_to_stall_ratio cl_max landing_touchdown_sink_rate)))))

/-- Partial of `flare_alt` with respect to `cl_max` as set by `GlideConditionComponent`, aviary/mission/two_dof/ode/landing_eom.py:507 -/
noncomputable def J_flare_alt__cl_max (gravity atmosphere_density landing_maximum_sink_rate vehicle_mass wing_area landing_glide_to_stall_ratio cl_max landing_maximum_flare_load_factor landing_touchdown_sink_rate : ℝ) : ℝ :=
  (1 / ((2 * gravity) * (landing_maximum_flare_load_factor - 1))) * ((((2 * (tas_glide
    atmosphere_density vehicle_mass wing_area landing_glide_to_stall_ratio cl_max)) *
    (dtasglide_dclmax atmosphere_density vehicle_mass wing_area landing_glide_to_stall_ratio
    cl_max)) * (((theta atmosphere_density landing_maximum_sink_rate vehicle_mass wing_area
    landing_glide_to_stall_ratio cl_max) ^ 2) - ((gamma_touchdown atmosphere_density
    vehicle_mass wing_area landing_glide_to_stall_ratio cl_max landing_touchdown_sink_rate) ^
    2))) + (((tas_glide atmosphere_density vehicle_mass wing_area landing_glide_to_stall_ratio
    cl_max) ^ 2) * (((2 * (theta atmosphere_density landing_maximum_sink_rate vehicle_mass
    wing_area landing_glide_to_stall_ratio cl_max)) * (dtheta_dclmax atmosphere_density
    landing_maximum_sink_rate vehicle_mass wing_area landing_glide_to_stall_ratio cl_max)) - ((2
    * (gamma_touchdown atmosphere_density vehicle_mass wing_area landing_glide_to_stall_ratio
    cl_max landing_touchdown_sink_rate)) * (dgammatd_dclmax atmosphere_density vehicle_mass
    wing_area landing_glide_to_stall_ratio cl_max landing_touchdown_sink_rate)))))

/-- Partial of `flare_alt` with respect to `atmosphere_density` as set by `GlideConditionComponent`, aviary/mission/two_dof/ode/landing_eom.py:515 -/
noncomputable def J_flare_alt__atmosphere_density (gravity atmosphere_density landing_maximum_sink_rate vehicle_mass wing_area landing_glide_to_stall_ratio cl_max landing_maximum_flare_load_factor landing_touchdown_sink_rate : ℝ) : ℝ :=
  (1 / ((2 * gravity) * (landing_maximum_flare_load_factor - 1))) * ((((2 * (tas_glide
    atmosphere_density vehicle_mass wing_area landing_glide_to_stall_ratio cl_max)) *
    (dtasglide_drhoapp atmosphere_density vehicle_mass wing_area landing_glide_to_stall_ratio
    cl_max)) * (((theta atmosphere_density landing_maximum_sink_rate vehicle_mass wing_area
    landing_glide_to_stall_ratio cl_max) ^ 2) - ((gamma_touchdown atmosphere_density
    vehicle_mass wing_area landing_glide_to_stall_ratio cl_max landing_touchdown_sink_rate) ^
    2))) + (((tas_glide atmosphere_density vehicle_mass wing_area landing_glide_to_stall_ratio
    cl_max) ^ 2) * (((2 * (theta atmosphere_density landing_maximum_sink_rate vehicle_mass
    wing_area landing_glide_to_stall_ratio cl_max)) * (dtheta_drhoapp atmosphere_density
    landing_maximum_sink_rate vehicle_mass wing_area landing_glide_to_stall_ratio cl_max)) - ((2
    * (gamma_touchdown atmosphere_density vehicle_mass wing_area landing_glide_to_stall_ratio
    cl_max landing_touchdown_sink_rate)) * (dgammatd_drhoapp atmosphere_density vehicle_mass
    wing_area landing_glide_to_stall_ratio cl_max landing_touchdown_sink_rate)))))

/-- Partial of `flare_alt` with respect to `landing_glide_to_stall_ratio` as set by `GlideConditionComponent`, aviary/mission/two_dof/ode/landing_eom.py:524 -/
noncomputable def J_flare_alt__landing_glide_to_stall_ratio (gravity atmosphere_density landing_maximum_sink_rate vehicle_mass wing_area landing_glide_to_stall_ratio cl_max landing_maximum_flare_load_factor landing_touchdown_sink_rate : ℝ) : ℝ :=
  (1 / ((2 * gravity) * (landing_maximum_flare_load_factor - 1))) * ((((2 * (tas_glide
    atmosphere_density vehicle_mass wing_area landing_glide_to_stall_ratio cl_max)) * (tas_stall
    atmosphere_density vehicle_mass wing_area cl_max)) * (((theta atmosphere_density
    landing_maximum_sink_rate vehicle_mass wing_area landing_glide_to_stall_ratio cl_max) ^ 2) -
    ((gamma_touchdown atmosphere_density vehicle_mass wing_area landing_glide_to_stall_ratio
    cl_max landing_touchdown_sink_rate) ^ 2))) + (((tas_glide atmosphere_density vehicle_mass
    wing_area landing_glide_to_stall_ratio cl_max) ^ 2) * (((2 * (theta atmosphere_density
    landing_maximum_sink_rate vehicle_mass wing_area landing_glide_to_stall_ratio cl_max)) *
    (dtheta_dglidetostallratio atmosphere_density landing_maximum_sink_rate vehicle_mass
    wing_area landing_glide_to_stall_ratio cl_max)) - ((2 * (gamma_touchdown atmosphere_density
    vehicle_mass wing_area landing_glide_to_stall_ratio cl_max landing_touchdown_sink_rate)) *
    (dgammatd_dglidetostallratio atmosphere_density vehicle_mass wing_area
    landing_glide_to_stall_ratio cl_max landing_touchdown_sink_rate)))))

theorem d_flare_alt__landing_maximum_flare_load_factor (gravity atmosphere_density
    landing_maximum_sink_rate vehicle_mass wing_area landing_glide_to_stall_ratio cl_max
    landing_maximum_flare_load_factor landing_touchdown_sink_rate : ℝ) (h0 : 0 < wing_area) (h1 :
    0 < cl_max) (h2 : 0 < atmosphere_density) (h3 : 0 < vehicle_mass) (h4 : 0 <
    landing_glide_to_stall_ratio) (h5 : -1 < landing_maximum_sink_rate / (60 * ((sqrt ((2 *
    (vehicle_mass / wing_area)) / (cl_max * atmosphere_density))) *
    landing_glide_to_stall_ratio))) (h6 : landing_maximum_sink_rate / (60 * ((sqrt ((2 *
    (vehicle_mass / wing_area)) / (cl_max * atmosphere_density))) * landing_glide_to_stall_ratio))
    < 1) (h7 : 0 < gravity) (h8 : landing_maximum_flare_load_factor - 1 ≠ 0) :
    HasDerivAt (fun t => out_flare_alt gravity atmosphere_density landing_maximum_sink_rate vehicle_mass wing_area landing_glide_to_stall_ratio cl_max t landing_touchdown_sink_rate) (J_flare_alt__landing_maximum_flare_load_factor gravity atmosphere_density landing_maximum_sink_rate vehicle_mass wing_area landing_glide_to_stall_ratio cl_max landing_maximum_flare_load_factor landing_touchdown_sink_rate) landing_maximum_flare_load_factor := by
  simp only [out_flare_alt, J_flare_alt__landing_maximum_flare_load_factor, flare_alt, gamma_touchdown, theta, tas_glide, tas_stall, wing_loading_land, sqrt_eq_rpow]
  (apply hasDerivAt_of_eq; on_goal 1 => (repeat' comp_step))
  all_goals try comp_side
  all_goals try simp (disch := first | assumption | positivity) only [div_mul_eq_div_div, div_half, inv_half]
  all_goals try simp only [mul_zero, zero_mul, add_zero, zero_add, sub_zero, zero_sub, mul_one, one_mul]
  all_goals try push_cast
  all_goals comp_eq

theorem d_flare_alt__landing_touchdown_sink_rate (gravity atmosphere_density
    landing_maximum_sink_rate vehicle_mass wing_area landing_glide_to_stall_ratio cl_max
    landing_maximum_flare_load_factor landing_touchdown_sink_rate : ℝ) (h0 : 0 < wing_area) (h1 :
    0 < cl_max) (h2 : 0 < atmosphere_density) (h3 : 0 < vehicle_mass) (h4 : 0 <
    landing_glide_to_stall_ratio) (h5 : -1 < landing_maximum_sink_rate / (60 * ((sqrt ((2 *
    (vehicle_mass / wing_area)) / (cl_max * atmosphere_density))) *
    landing_glide_to_stall_ratio))) (h6 : landing_maximum_sink_rate / (60 * ((sqrt ((2 *
    (vehicle_mass / wing_area)) / (cl_max * atmosphere_density))) * landing_glide_to_stall_ratio))
    < 1) (h7 : 0 < gravity) (h8 : landing_maximum_flare_load_factor - 1 ≠ 0) :
    HasDerivAt (fun t => out_flare_alt gravity atmosphere_density landing_maximum_sink_rate vehicle_mass wing_area landing_glide_to_stall_ratio cl_max landing_maximum_flare_load_factor t) (J_flare_alt__landing_touchdown_sink_rate gravity atmosphere_density vehicle_mass wing_area landing_glide_to_stall_ratio cl_max landing_maximum_flare_load_factor landing_touchdown_sink_rate) landing_touchdown_sink_rate := by
  simp only [out_flare_alt, J_flare_alt__landing_touchdown_sink_rate, dgammatd_drateofsinktd, flare_alt, gamma_touchdown, theta, tas_glide, tas_stall, wing_loading_land, sqrt_eq_rpow]
  (apply hasDerivAt_of_eq; on_goal 1 => (repeat' comp_step))
  all_goals try comp_side
  all_goals try simp (disch := first | assumption | positivity) only [div_mul_eq_div_div, div_half, inv_half]
  all_goals try simp only [mul_zero, zero_mul, add_zero, zero_add, sub_zero, zero_sub, mul_one, one_mul]
  all_goals try push_cast
  all_goals comp_eq

theorem d_landing_initial_velocity__atmosphere_density (atmosphere_density vehicle_mass wing_area
    landing_glide_to_stall_ratio cl_max : ℝ) (h0 : 0 < wing_area) (h1 : 0 < cl_max) (h2 : 0 <
    atmosphere_density) (h3 : 0 < vehicle_mass) :
    HasDerivAt (fun t => out_landing_initial_velocity t vehicle_mass wing_area landing_glide_to_stall_ratio cl_max) (J_landing_initial_velocity__atmosphere_density atmosphere_density vehicle_mass wing_area landing_glide_to_stall_ratio cl_max) atmosphere_density := by
  have e0 : ∀ x : ℝ, 0 < x → x ^ ((-(3 / 2)) : ℝ) = x ^ ((1 / 2) : ℝ) / x ^ 2 := fun x hx => rpow_down hx 2 (by norm_num)
  simp only [out_landing_initial_velocity, J_landing_initial_velocity__atmosphere_density, dtasglide_drhoapp, dtasstall_drhoapp, tas_glide, tas_stall, wing_loading_land, sqrt_eq_rpow]
  (apply hasDerivAt_of_eq; on_goal 1 => (repeat' comp_step))
  all_goals try comp_side
  all_goals try simp (disch := first | assumption | positivity) only [mul_rpow, div_rpow, e0, div_mul_eq_div_div, div_half, inv_half]
  all_goals try simp only [mul_zero, zero_mul, add_zero, zero_add, sub_zero, zero_sub, mul_one, one_mul]
  all_goals try push_cast
  all_goals comp_eq

theorem d_landing_initial_velocity__vehicle_mass (atmosphere_density vehicle_mass wing_area
    landing_glide_to_stall_ratio cl_max : ℝ) (h0 : 0 < wing_area) (h1 : 0 < cl_max) (h2 : 0 <
    atmosphere_density) (h3 : 0 < vehicle_mass) :
    HasDerivAt (fun t => out_landing_initial_velocity atmosphere_density t wing_area landing_glide_to_stall_ratio cl_max) (J_landing_initial_velocity__vehicle_mass atmosphere_density vehicle_mass wing_area landing_glide_to_stall_ratio cl_max) vehicle_mass := by
  have e0 : ∀ x : ℝ, 0 < x → x ^ ((-(1 / 2)) : ℝ) = x ^ ((1 / 2) : ℝ) / x ^ 1 := fun x hx => rpow_down hx 1 (by norm_num)
  simp only [out_landing_initial_velocity, J_landing_initial_velocity__vehicle_mass, dtasglide_dweight, dtasstall_dweight, tas_glide, tas_stall, wing_loading_land, sqrt_eq_rpow]
  (apply hasDerivAt_of_eq; on_goal 1 => (repeat' comp_step))
  all_goals try comp_side
  all_goals try simp (disch := first | assumption | positivity) only [mul_rpow, div_rpow, e0, div_mul_eq_div_div, div_half, inv_half]
  all_goals try simp only [mul_zero, zero_mul, add_zero, zero_add, sub_zero, zero_sub, mul_one, one_mul]
  all_goals try push_cast
  all_goals comp_eq

theorem d_landing_initial_velocity__wing_area (atmosphere_density vehicle_mass wing_area
    landing_glide_to_stall_ratio cl_max : ℝ) (h0 : 0 < wing_area) (h1 : 0 < cl_max) (h2 : 0 <
    atmosphere_density) (h3 : 0 < vehicle_mass) :
    HasDerivAt (fun t => out_landing_initial_velocity atmosphere_density vehicle_mass t landing_glide_to_stall_ratio cl_max) (J_landing_initial_velocity__wing_area atmosphere_density vehicle_mass wing_area landing_glide_to_stall_ratio cl_max) wing_area := by
  have e0 : ∀ x : ℝ, 0 < x → x ^ ((-(3 / 2)) : ℝ) = x ^ ((1 / 2) : ℝ) / x ^ 2 := fun x hx => rpow_down hx 2 (by norm_num)
  simp only [out_landing_initial_velocity, J_landing_initial_velocity__wing_area, dtasglide_dwingarea, dtasstall_dwingarea, tas_glide, tas_stall, wing_loading_land, sqrt_eq_rpow]
  (apply hasDerivAt_of_eq; on_goal 1 => (repeat' comp_step))
  all_goals try comp_side
  all_goals try simp (disch := first | assumption | positivity) only [mul_rpow, div_rpow, e0, div_mul_eq_div_div, div_half, inv_half]
  all_goals try simp only [mul_zero, zero_mul, add_zero, zero_add, sub_zero, zero_sub, mul_one, one_mul]
  all_goals try push_cast
  all_goals comp_eq

theorem d_landing_initial_velocity__landing_glide_to_stall_ratio (atmosphere_density vehicle_mass
    wing_area landing_glide_to_stall_ratio cl_max : ℝ) (h0 : 0 < wing_area) (h1 : 0 < cl_max) (h2
    : 0 < atmosphere_density) (h3 : 0 < vehicle_mass) :
    HasDerivAt (fun t => out_landing_initial_velocity atmosphere_density vehicle_mass wing_area t cl_max) (J_landing_initial_velocity__landing_glide_to_stall_ratio atmosphere_density vehicle_mass wing_area cl_max) landing_glide_to_stall_ratio := by
  simp only [out_landing_initial_velocity, J_landing_initial_velocity__landing_glide_to_stall_ratio, tas_glide, tas_stall, wing_loading_land, sqrt_eq_rpow]
  (apply hasDerivAt_of_eq; on_goal 1 => (repeat' comp_step))
  all_goals try comp_side
  all_goals try simp (disch := first | assumption | positivity) only [div_mul_eq_div_div, div_half, inv_half]
  all_goals try simp only [mul_zero, zero_mul, add_zero, zero_add, sub_zero, zero_sub, mul_one, one_mul]
  all_goals try push_cast
  all_goals comp_eq

theorem d_landing_initial_velocity__cl_max (atmosphere_density vehicle_mass wing_area
    landing_glide_to_stall_ratio cl_max : ℝ) (h0 : 0 < wing_area) (h1 : 0 < cl_max) (h2 : 0 <
    atmosphere_density) (h3 : 0 < vehicle_mass) :
    HasDerivAt (fun t => out_landing_initial_velocity atmosphere_density vehicle_mass wing_area landing_glide_to_stall_ratio t) (J_landing_initial_velocity__cl_max atmosphere_density vehicle_mass wing_area landing_glide_to_stall_ratio cl_max) cl_max := by
  have e0 : ∀ x : ℝ, 0 < x → x ^ ((-(3 / 2)) : ℝ) = x ^ ((1 / 2) : ℝ) / x ^ 2 := fun x hx => rpow_down hx 2 (by norm_num)
  simp only [out_landing_initial_velocity, J_landing_initial_velocity__cl_max, dtasglide_dclmax, dtasstall_dclmax, tas_glide, tas_stall, wing_loading_land, sqrt_eq_rpow]
  (apply hasDerivAt_of_eq; on_goal 1 => (repeat' comp_step))
  all_goals try comp_side
  all_goals try simp (disch := first | assumption | positivity) only [mul_rpow, div_rpow, e0, div_mul_eq_div_div, div_half, inv_half]
  all_goals try simp only [mul_zero, zero_mul, add_zero, zero_add, sub_zero, zero_sub, mul_one, one_mul]
  all_goals try push_cast
  all_goals comp_eq

theorem d_landing_stall_velocity__atmosphere_density (atmosphere_density vehicle_mass wing_area
    cl_max : ℝ) (h0 : 0 < wing_area) (h1 : 0 < cl_max) (h2 : 0 < atmosphere_density) (h3 : 0 <
    vehicle_mass) :
    HasDerivAt (fun t => out_landing_stall_velocity t vehicle_mass wing_area cl_max) (J_landing_stall_velocity__atmosphere_density atmosphere_density vehicle_mass wing_area cl_max) atmosphere_density := by
  have e0 : ∀ x : ℝ, 0 < x → x ^ ((-(3 / 2)) : ℝ) = x ^ ((1 / 2) : ℝ) / x ^ 2 := fun x hx => rpow_down hx 2 (by norm_num)
  simp only [out_landing_stall_velocity, J_landing_stall_velocity__atmosphere_density, dtasstall_drhoapp, tas_stall, wing_loading_land, sqrt_eq_rpow]
  (apply hasDerivAt_of_eq; on_goal 1 => (repeat' comp_step))
  all_goals try comp_side
  all_goals try simp (disch := first | assumption | positivity) only [mul_rpow, div_rpow, e0, div_mul_eq_div_div, div_half, inv_half]
  all_goals try simp only [mul_zero, zero_mul, add_zero, zero_add, sub_zero, zero_sub, mul_one, one_mul]
  all_goals try push_cast
  all_goals comp_eq

theorem d_landing_stall_velocity__vehicle_mass (atmosphere_density vehicle_mass wing_area cl_max :
    ℝ) (h0 : 0 < wing_area) (h1 : 0 < cl_max) (h2 : 0 < atmosphere_density) (h3 : 0 <
    vehicle_mass) :
    HasDerivAt (fun t => out_landing_stall_velocity atmosphere_density t wing_area cl_max) (J_landing_stall_velocity__vehicle_mass atmosphere_density vehicle_mass wing_area cl_max) vehicle_mass := by
  have e0 : ∀ x : ℝ, 0 < x → x ^ ((-(1 / 2)) : ℝ) = x ^ ((1 / 2) : ℝ) / x ^ 1 := fun x hx => rpow_down hx 1 (by norm_num)
  simp only [out_landing_stall_velocity, J_landing_stall_velocity__vehicle_mass, dtasstall_dweight, tas_stall, wing_loading_land, sqrt_eq_rpow]
  (apply hasDerivAt_of_eq; on_goal 1 => (repeat' comp_step))
  all_goals try comp_side
  all_goals try simp (disch := first | assumption | positivity) only [mul_rpow, div_rpow, e0, div_mul_eq_div_div, div_half, inv_half]
  all_goals try simp only [mul_zero, zero_mul, add_zero, zero_add, sub_zero, zero_sub, mul_one, one_mul]
  all_goals try push_cast
  all_goals comp_eq

theorem d_landing_stall_velocity__wing_area (atmosphere_density vehicle_mass wing_area cl_max : ℝ)
    (h0 : 0 < wing_area) (h1 : 0 < cl_max) (h2 : 0 < atmosphere_density) (h3 : 0 < vehicle_mass) :
    HasDerivAt (fun t => out_landing_stall_velocity atmosphere_density vehicle_mass t cl_max) (J_landing_stall_velocity__wing_area atmosphere_density vehicle_mass wing_area cl_max) wing_area := by
  have e0 : ∀ x : ℝ, 0 < x → x ^ ((-(3 / 2)) : ℝ) = x ^ ((1 / 2) : ℝ) / x ^ 2 := fun x hx => rpow_down hx 2 (by norm_num)
  simp only [out_landing_stall_velocity, J_landing_stall_velocity__wing_area, dtasstall_dwingarea, tas_stall, wing_loading_land, sqrt_eq_rpow]
  (apply hasDerivAt_of_eq; on_goal 1 => (repeat' comp_step))
  all_goals try comp_side
  all_goals try simp (disch := first | assumption | positivity) only [mul_rpow, div_rpow, e0, div_mul_eq_div_div, div_half, inv_half]
  all_goals try simp only [mul_zero, zero_mul, add_zero, zero_add, sub_zero, zero_sub, mul_one, one_mul]
  all_goals try push_cast
  all_goals comp_eq

theorem d_landing_stall_velocity__cl_max (atmosphere_density vehicle_mass wing_area cl_max : ℝ)
    (h0 : 0 < wing_area) (h1 : 0 < cl_max) (h2 : 0 < atmosphere_density) (h3 : 0 < vehicle_mass) :
    HasDerivAt (fun t => out_landing_stall_velocity atmosphere_density vehicle_mass wing_area t) (J_landing_stall_velocity__cl_max atmosphere_density vehicle_mass wing_area cl_max) cl_max := by
  have e0 : ∀ x : ℝ, 0 < x → x ^ ((-(3 / 2)) : ℝ) = x ^ ((1 / 2) : ℝ) / x ^ 2 := fun x hx => rpow_down hx 2 (by norm_num)
  simp only [out_landing_stall_velocity, J_landing_stall_velocity__cl_max, dtasstall_dclmax, tas_stall, wing_loading_land, sqrt_eq_rpow]
  (apply hasDerivAt_of_eq; on_goal 1 => (repeat' comp_step))
  all_goals try comp_side
  all_goals try simp (disch := first | assumption | positivity) only [mul_rpow, div_rpow, e0, div_mul_eq_div_div, div_half, inv_half]
  all_goals try simp only [mul_zero, zero_mul, add_zero, zero_add, sub_zero, zero_sub, mul_one, one_mul]
  all_goals try push_cast
  all_goals comp_eq

theorem d_tas_touchdown__atmosphere_density (atmosphere_density vehicle_mass wing_area
    landing_glide_to_stall_ratio cl_max : ℝ) (h0 : 0 < wing_area) (h1 : 0 < cl_max) (h2 : 0 <
    atmosphere_density) (h3 : 0 < vehicle_mass) :
    HasDerivAt (fun t => out_tas_touchdown t vehicle_mass wing_area landing_glide_to_stall_ratio cl_max) (J_tas_touchdown__atmosphere_density atmosphere_density vehicle_mass wing_area landing_glide_to_stall_ratio cl_max) atmosphere_density := by
  have e0 : ∀ x : ℝ, 0 < x → x ^ ((-(3 / 2)) : ℝ) = x ^ ((1 / 2) : ℝ) / x ^ 2 := fun x hx => rpow_down hx 2 (by norm_num)
  simp only [out_tas_touchdown, J_tas_touchdown__atmosphere_density, dtastd_drhoapp, dtasstall_drhoapp, tas_touchdown, tas_stall, wing_loading_land, touchdown_velocity_ratio, sqrt_eq_rpow]
  (apply hasDerivAt_of_eq; on_goal 1 => (repeat' comp_step))
  all_goals try comp_side
  all_goals try simp (disch := first | assumption | positivity) only [mul_rpow, div_rpow, e0, div_mul_eq_div_div, div_half, inv_half]
  all_goals try simp only [mul_zero, zero_mul, add_zero, zero_add, sub_zero, zero_sub, mul_one, one_mul]
  all_goals try push_cast
  all_goals comp_eq

theorem d_tas_touchdown__vehicle_mass (atmosphere_density vehicle_mass wing_area
    landing_glide_to_stall_ratio cl_max : ℝ) (h0 : 0 < wing_area) (h1 : 0 < cl_max) (h2 : 0 <
    atmosphere_density) (h3 : 0 < vehicle_mass) :
    HasDerivAt (fun t => out_tas_touchdown atmosphere_density t wing_area landing_glide_to_stall_ratio cl_max) (J_tas_touchdown__vehicle_mass atmosphere_density vehicle_mass wing_area landing_glide_to_stall_ratio cl_max) vehicle_mass := by
  have e0 : ∀ x : ℝ, 0 < x → x ^ ((-(1 / 2)) : ℝ) = x ^ ((1 / 2) : ℝ) / x ^ 1 := fun x hx => rpow_down hx 1 (by norm_num)
  simp only [out_tas_touchdown, J_tas_touchdown__vehicle_mass, dtastd_dweight, dtasstall_dweight, tas_touchdown, tas_stall, wing_loading_land, touchdown_velocity_ratio, sqrt_eq_rpow]
  (apply hasDerivAt_of_eq; on_goal 1 => (repeat' comp_step))
  all_goals try comp_side
  all_goals try simp (disch := first | assumption | positivity) only [mul_rpow, div_rpow, e0, div_mul_eq_div_div, div_half, inv_half]
  all_goals try simp only [mul_zero, zero_mul, add_zero, zero_add, sub_zero, zero_sub, mul_one, one_mul]
  all_goals try push_cast
  all_goals comp_eq

theorem d_tas_touchdown__wing_area (atmosphere_density vehicle_mass wing_area
    landing_glide_to_stall_ratio cl_max : ℝ) (h0 : 0 < wing_area) (h1 : 0 < cl_max) (h2 : 0 <
    atmosphere_density) (h3 : 0 < vehicle_mass) :
    HasDerivAt (fun t => out_tas_touchdown atmosphere_density vehicle_mass t landing_glide_to_stall_ratio cl_max) (J_tas_touchdown__wing_area atmosphere_density vehicle_mass wing_area landing_glide_to_stall_ratio cl_max) wing_area := by
  have e0 : ∀ x : ℝ, 0 < x → x ^ ((-(3 / 2)) : ℝ) = x ^ ((1 / 2) : ℝ) / x ^ 2 := fun x hx => rpow_down hx 2 (by norm_num)
  simp only [out_tas_touchdown, J_tas_touchdown__wing_area, dtastd_dwingarea, dtasstall_dwingarea, tas_touchdown, tas_stall, wing_loading_land, touchdown_velocity_ratio, sqrt_eq_rpow]
  (apply hasDerivAt_of_eq; on_goal 1 => (repeat' comp_step))
  all_goals try comp_side
  all_goals try simp (disch := first | assumption | positivity) only [mul_rpow, div_rpow, e0, div_mul_eq_div_div, div_half, inv_half]
  all_goals try simp only [mul_zero, zero_mul, add_zero, zero_add, sub_zero, zero_sub, mul_one, one_mul]
  all_goals try push_cast
  all_goals comp_eq

theorem d_tas_touchdown__landing_glide_to_stall_ratio (atmosphere_density vehicle_mass wing_area
    landing_glide_to_stall_ratio cl_max : ℝ) (h0 : 0 < wing_area) (h1 : 0 < cl_max) (h2 : 0 <
    atmosphere_density) (h3 : 0 < vehicle_mass) :
    HasDerivAt (fun t => out_tas_touchdown atmosphere_density vehicle_mass wing_area t cl_max) (J_tas_touchdown__landing_glide_to_stall_ratio atmosphere_density vehicle_mass wing_area cl_max) landing_glide_to_stall_ratio := by
  simp only [out_tas_touchdown, J_tas_touchdown__landing_glide_to_stall_ratio, dtastd_dglidetostallratio, tas_touchdown, tas_stall, wing_loading_land, touchdown_velocity_ratio, sqrt_eq_rpow]
  (apply hasDerivAt_of_eq; on_goal 1 => (repeat' comp_step))
  all_goals try comp_side
  all_goals try simp (disch := first | assumption | positivity) only [div_mul_eq_div_div, div_half, inv_half]
  all_goals try simp only [mul_zero, zero_mul, add_zero, zero_add, sub_zero, zero_sub, mul_one, one_mul]
  all_goals try push_cast
  all_goals comp_eq

theorem d_tas_touchdown__cl_max (atmosphere_density vehicle_mass wing_area
    landing_glide_to_stall_ratio cl_max : ℝ) (h0 : 0 < wing_area) (h1 : 0 < cl_max) (h2 : 0 <
    atmosphere_density) (h3 : 0 < vehicle_mass) :
    HasDerivAt (fun t => out_tas_touchdown atmosphere_density vehicle_mass wing_area landing_glide_to_stall_ratio t) (J_tas_touchdown__cl_max atmosphere_density vehicle_mass wing_area landing_glide_to_stall_ratio cl_max) cl_max := by
  have e0 : ∀ x : ℝ, 0 < x → x ^ ((-(3 / 2)) : ℝ) = x ^ ((1 / 2) : ℝ) / x ^ 2 := fun x hx => rpow_down hx 2 (by norm_num)
  simp only [out_tas_touchdown, J_tas_touchdown__cl_max, dtastd_dclmax, dtasstall_dclmax, tas_touchdown, tas_stall, wing_loading_land, touchdown_velocity_ratio, sqrt_eq_rpow]
  (apply hasDerivAt_of_eq; on_goal 1 => (repeat' comp_step))
  all_goals try comp_side
  all_goals try simp (disch := first | assumption | positivity) only [mul_rpow, div_rpow, e0, div_mul_eq_div_div, div_half, inv_half]
  all_goals try simp only [mul_zero, zero_mul, add_zero, zero_add, sub_zero, zero_sub, mul_one, one_mul]
  all_goals try push_cast
  all_goals comp_eq

theorem d_density_ratio__atmosphere_density (sea_level_density atmosphere_density : ℝ) (h0 : 0 <
    sea_level_density) :
    HasDerivAt (fun t => out_density_ratio sea_level_density t) (J_density_ratio__atmosphere_density sea_level_density) atmosphere_density := by
  simp only [out_density_ratio, J_density_ratio__atmosphere_density]
  (apply hasDerivAt_of_eq; on_goal 1 => (repeat' comp_step))
  all_goals try comp_side
  all_goals try simp only [mul_zero, zero_mul, add_zero, zero_add, sub_zero, zero_sub, mul_one, one_mul]
  all_goals try push_cast
  all_goals comp_eq

theorem d_wing_loading_land__vehicle_mass (vehicle_mass wing_area : ℝ) (h0 : 0 < wing_area) :
    HasDerivAt (fun t => out_wing_loading_land t wing_area) (J_wing_loading_land__vehicle_mass wing_area) vehicle_mass := by
  simp only [out_wing_loading_land, J_wing_loading_land__vehicle_mass, wing_loading_land]
  (apply hasDerivAt_of_eq; on_goal 1 => (repeat' comp_step))
  all_goals try comp_side
  all_goals try simp only [mul_zero, zero_mul, add_zero, zero_add, sub_zero, zero_sub, mul_one, one_mul]
  all_goals try push_cast
  all_goals comp_eq

theorem d_wing_loading_land__wing_area (vehicle_mass wing_area : ℝ) (h0 : 0 < wing_area) :
    HasDerivAt (fun t => out_wing_loading_land vehicle_mass t) (J_wing_loading_land__wing_area vehicle_mass wing_area) wing_area := by
  simp only [out_wing_loading_land, J_wing_loading_land__wing_area, wing_loading_land]
  (apply hasDerivAt_of_eq; on_goal 1 => (repeat' comp_step))
  all_goals try comp_side
  all_goals try simp only [mul_zero, zero_mul, add_zero, zero_add, sub_zero, zero_sub, mul_one, one_mul]
  all_goals try push_cast
  all_goals comp_eq

theorem d_glide_distance__landing_initial_altitude (atmosphere_density landing_maximum_sink_rate
    vehicle_mass wing_area landing_glide_to_stall_ratio cl_max landing_initial_altitude : ℝ) (h0 :
    0 < wing_area) (h1 : 0 < cl_max) (h2 : 0 < atmosphere_density) (h3 : 0 < vehicle_mass) (h4 : 0
    < landing_glide_to_stall_ratio) (h5 : -1 < landing_maximum_sink_rate / (60 * ((sqrt ((2 *
    (vehicle_mass / wing_area)) / (cl_max * atmosphere_density))) *
    landing_glide_to_stall_ratio))) (h6 : landing_maximum_sink_rate / (60 * ((sqrt ((2 *
    (vehicle_mass / wing_area)) / (cl_max * atmosphere_density))) * landing_glide_to_stall_ratio))
    < 1) (h7 : cos (arcsin (landing_maximum_sink_rate / (60 * ((sqrt ((2 * (vehicle_mass /
    wing_area)) / (cl_max * atmosphere_density))) * landing_glide_to_stall_ratio)))) ≠ 0) (h8 :
    tan (arcsin (landing_maximum_sink_rate / (60 * ((sqrt ((2 * (vehicle_mass / wing_area)) /
    (cl_max * atmosphere_density))) * landing_glide_to_stall_ratio)))) ≠ 0) :
    HasDerivAt (fun t => out_glide_distance atmosphere_density landing_maximum_sink_rate vehicle_mass wing_area landing_glide_to_stall_ratio cl_max t) (J_glide_distance__landing_initial_altitude atmosphere_density landing_maximum_sink_rate vehicle_mass wing_area landing_glide_to_stall_ratio cl_max) landing_initial_altitude := by
  simp only [out_glide_distance, J_glide_distance__landing_initial_altitude, glide_distance, theta, tas_glide, tas_stall, wing_loading_land, sqrt_eq_rpow]
  (apply hasDerivAt_of_eq; on_goal 1 => (repeat' comp_step))
  all_goals try comp_side
  all_goals try simp (disch := first | assumption | positivity) only [div_mul_eq_div_div, div_half, inv_half]
  all_goals try simp only [mul_zero, zero_mul, add_zero, zero_add, sub_zero, zero_sub, mul_one, one_mul]
  all_goals try push_cast
  all_goals comp_eq

theorem d_tr_distance__landing_maximum_flare_load_factor (gravity atmosphere_density
    landing_maximum_sink_rate vehicle_mass wing_area landing_glide_to_stall_ratio cl_max
    landing_maximum_flare_load_factor landing_touchdown_sink_rate : ℝ) (h0 : 0 < wing_area) (h1 :
    0 < cl_max) (h2 : 0 < atmosphere_density) (h3 : 0 < vehicle_mass) (h4 : 0 < gravity) (h5 :
    landing_maximum_flare_load_factor - 1 ≠ 0) (h6 : 0 < landing_glide_to_stall_ratio) (h7 : -1 <
    landing_maximum_sink_rate / (60 * ((sqrt ((2 * (vehicle_mass / wing_area)) / (cl_max *
    atmosphere_density))) * landing_glide_to_stall_ratio))) (h8 : landing_maximum_sink_rate / (60
    * ((sqrt ((2 * (vehicle_mass / wing_area)) / (cl_max * atmosphere_density))) *
    landing_glide_to_stall_ratio)) < 1) (h9 : arcsin (landing_maximum_sink_rate / (60 * ((sqrt ((2
    * (vehicle_mass / wing_area)) / (cl_max * atmosphere_density))) *
    landing_glide_to_stall_ratio))) ≠ 0) :
    HasDerivAt (fun t => out_tr_distance gravity atmosphere_density landing_maximum_sink_rate vehicle_mass wing_area landing_glide_to_stall_ratio cl_max t landing_touchdown_sink_rate) (J_tr_distance__landing_maximum_flare_load_factor gravity atmosphere_density landing_maximum_sink_rate vehicle_mass wing_area landing_glide_to_stall_ratio cl_max landing_maximum_flare_load_factor landing_touchdown_sink_rate) landing_maximum_flare_load_factor := by
  simp only [out_tr_distance, J_tr_distance__landing_maximum_flare_load_factor, inter2, dinter1_dlandingflareloadfactor, drz_dlandingflareloadfactor, tr_distance, gamma_touchdown, theta, rz, tas_glide, tas_stall, wing_loading_land, sqrt_eq_rpow]
  (apply hasDerivAt_of_eq; on_goal 1 => (repeat' comp_step))
  all_goals try comp_side
  all_goals try simp (disch := first | assumption | positivity) only [div_mul_eq_div_div, div_half, inv_half]
  all_goals try simp only [mul_zero, zero_mul, add_zero, zero_add, sub_zero, zero_sub, mul_one, one_mul]
  all_goals try push_cast
  all_goals comp_eq

theorem d_tr_distance__landing_touchdown_sink_rate (gravity atmosphere_density
    landing_maximum_sink_rate vehicle_mass wing_area landing_glide_to_stall_ratio cl_max
    landing_maximum_flare_load_factor landing_touchdown_sink_rate : ℝ) (h0 : 0 < wing_area) (h1 :
    0 < cl_max) (h2 : 0 < atmosphere_density) (h3 : 0 < vehicle_mass) (h4 : 0 < gravity) (h5 :
    landing_maximum_flare_load_factor - 1 ≠ 0) (h6 : 0 < landing_glide_to_stall_ratio) (h7 : -1 <
    landing_maximum_sink_rate / (60 * ((sqrt ((2 * (vehicle_mass / wing_area)) / (cl_max *
    atmosphere_density))) * landing_glide_to_stall_ratio))) (h8 : landing_maximum_sink_rate / (60
    * ((sqrt ((2 * (vehicle_mass / wing_area)) / (cl_max * atmosphere_density))) *
    landing_glide_to_stall_ratio)) < 1) (h9 : arcsin (landing_maximum_sink_rate / (60 * ((sqrt ((2
    * (vehicle_mass / wing_area)) / (cl_max * atmosphere_density))) *
    landing_glide_to_stall_ratio))) ≠ 0) :
    HasDerivAt (fun t => out_tr_distance gravity atmosphere_density landing_maximum_sink_rate vehicle_mass wing_area landing_glide_to_stall_ratio cl_max landing_maximum_flare_load_factor t) (J_tr_distance__landing_touchdown_sink_rate gravity atmosphere_density landing_maximum_sink_rate vehicle_mass wing_area landing_glide_to_stall_ratio cl_max landing_maximum_flare_load_factor landing_touchdown_sink_rate) landing_touchdown_sink_rate := by
  simp only [out_tr_distance, J_tr_distance__landing_touchdown_sink_rate, dinter2_drateofsinktd, dgammatd_drateofsinktd, inter1, rz_2, tr_distance, gamma_touchdown, theta, rz, tas_glide, tas_stall, wing_loading_land, sqrt_eq_rpow]
  (apply hasDerivAt_of_eq; on_goal 1 => (repeat' comp_step))
  all_goals try comp_side
  all_goals try simp (disch := first | assumption | positivity) only [div_mul_eq_div_div, div_half, inv_half]
  all_goals try simp only [mul_zero, zero_mul, add_zero, zero_add, sub_zero, zero_sub, mul_one, one_mul]
  all_goals try push_cast
  all_goals comp_eq

theorem d_delay_distance__atmosphere_density (atmosphere_density vehicle_mass wing_area
    landing_glide_to_stall_ratio cl_max landing_braking_delay : ℝ) (h0 : 0 < wing_area) (h1 : 0 <
    cl_max) (h2 : 0 < atmosphere_density) (h3 : 0 < vehicle_mass) :
    HasDerivAt (fun t => out_delay_distance t vehicle_mass wing_area landing_glide_to_stall_ratio cl_max landing_braking_delay) (J_delay_distance__atmosphere_density atmosphere_density vehicle_mass wing_area landing_glide_to_stall_ratio cl_max landing_braking_delay) atmosphere_density := by
  have e0 : ∀ x : ℝ, 0 < x → x ^ ((-(3 / 2)) : ℝ) = x ^ ((1 / 2) : ℝ) / x ^ 2 := fun x hx => rpow_down hx 2 (by norm_num)
  simp only [out_delay_distance, J_delay_distance__atmosphere_density, dtastd_drhoapp, dtasstall_drhoapp, delay_distance, tas_touchdown, tas_stall, wing_loading_land, touchdown_velocity_ratio, sqrt_eq_rpow]
  (apply hasDerivAt_of_eq; on_goal 1 => (repeat' comp_step))
  all_goals try comp_side
  all_goals try simp (disch := first | assumption | positivity) only [mul_rpow, div_rpow, e0, div_mul_eq_div_div, div_half, inv_half]
  all_goals try simp only [mul_zero, zero_mul, add_zero, zero_add, sub_zero, zero_sub, mul_one, one_mul]
  all_goals try push_cast
  all_goals comp_eq

theorem d_delay_distance__vehicle_mass (atmosphere_density vehicle_mass wing_area
    landing_glide_to_stall_ratio cl_max landing_braking_delay : ℝ) (h0 : 0 < wing_area) (h1 : 0 <
    cl_max) (h2 : 0 < atmosphere_density) (h3 : 0 < vehicle_mass) :
    HasDerivAt (fun t => out_delay_distance atmosphere_density t wing_area landing_glide_to_stall_ratio cl_max landing_braking_delay) (J_delay_distance__vehicle_mass atmosphere_density vehicle_mass wing_area landing_glide_to_stall_ratio cl_max landing_braking_delay) vehicle_mass := by
  have e0 : ∀ x : ℝ, 0 < x → x ^ ((-(1 / 2)) : ℝ) = x ^ ((1 / 2) : ℝ) / x ^ 1 := fun x hx => rpow_down hx 1 (by norm_num)
  simp only [out_delay_distance, J_delay_distance__vehicle_mass, dtastd_dweight, dtasstall_dweight, delay_distance, tas_touchdown, tas_stall, wing_loading_land, touchdown_velocity_ratio, sqrt_eq_rpow]
  (apply hasDerivAt_of_eq; on_goal 1 => (repeat' comp_step))
  all_goals try comp_side
  all_goals try simp (disch := first | assumption | positivity) only [mul_rpow, div_rpow, e0, div_mul_eq_div_div, div_half, inv_half]
  all_goals try simp only [mul_zero, zero_mul, add_zero, zero_add, sub_zero, zero_sub, mul_one, one_mul]
  all_goals try push_cast
  all_goals comp_eq

theorem d_delay_distance__wing_area (atmosphere_density vehicle_mass wing_area
    landing_glide_to_stall_ratio cl_max landing_braking_delay : ℝ) (h0 : 0 < wing_area) (h1 : 0 <
    cl_max) (h2 : 0 < atmosphere_density) (h3 : 0 < vehicle_mass) :
    HasDerivAt (fun t => out_delay_distance atmosphere_density vehicle_mass t landing_glide_to_stall_ratio cl_max landing_braking_delay) (J_delay_distance__wing_area atmosphere_density vehicle_mass wing_area landing_glide_to_stall_ratio cl_max landing_braking_delay) wing_area := by
  have e0 : ∀ x : ℝ, 0 < x → x ^ ((-(3 / 2)) : ℝ) = x ^ ((1 / 2) : ℝ) / x ^ 2 := fun x hx => rpow_down hx 2 (by norm_num)
  simp only [out_delay_distance, J_delay_distance__wing_area, dtastd_dwingarea, dtasstall_dwingarea, delay_distance, tas_touchdown, tas_stall, wing_loading_land, touchdown_velocity_ratio, sqrt_eq_rpow]
  (apply hasDerivAt_of_eq; on_goal 1 => (repeat' comp_step))
  all_goals try comp_side
  all_goals try simp (disch := first | assumption | positivity) only [mul_rpow, div_rpow, e0, div_mul_eq_div_div, div_half, inv_half]
  all_goals try simp only [mul_zero, zero_mul, add_zero, zero_add, sub_zero, zero_sub, mul_one, one_mul]
  all_goals try push_cast
  all_goals comp_eq

theorem d_delay_distance__landing_glide_to_stall_ratio (atmosphere_density vehicle_mass wing_area
    landing_glide_to_stall_ratio cl_max landing_braking_delay : ℝ) (h0 : 0 < wing_area) (h1 : 0 <
    cl_max) (h2 : 0 < atmosphere_density) (h3 : 0 < vehicle_mass) :
    HasDerivAt (fun t => out_delay_distance atmosphere_density vehicle_mass wing_area t cl_max landing_braking_delay) (J_delay_distance__landing_glide_to_stall_ratio atmosphere_density vehicle_mass wing_area cl_max landing_braking_delay) landing_glide_to_stall_ratio := by
  simp only [out_delay_distance, J_delay_distance__landing_glide_to_stall_ratio, dtastd_dglidetostallratio, delay_distance, tas_touchdown, tas_stall, wing_loading_land, touchdown_velocity_ratio, sqrt_eq_rpow]
  (apply hasDerivAt_of_eq; on_goal 1 => (repeat' comp_step))
  all_goals try comp_side
  all_goals try simp (disch := first | assumption | positivity) only [div_mul_eq_div_div, div_half, inv_half]
  all_goals try simp only [mul_zero, zero_mul, add_zero, zero_add, sub_zero, zero_sub, mul_one, one_mul]
  all_goals try push_cast
  all_goals comp_eq

theorem d_delay_distance__cl_max (atmosphere_density vehicle_mass wing_area
    landing_glide_to_stall_ratio cl_max landing_braking_delay : ℝ) (h0 : 0 < wing_area) (h1 : 0 <
    cl_max) (h2 : 0 < atmosphere_density) (h3 : 0 < vehicle_mass) :
    HasDerivAt (fun t => out_delay_distance atmosphere_density vehicle_mass wing_area landing_glide_to_stall_ratio t landing_braking_delay) (J_delay_distance__cl_max atmosphere_density vehicle_mass wing_area landing_glide_to_stall_ratio cl_max landing_braking_delay) cl_max := by
  have e0 : ∀ x : ℝ, 0 < x → x ^ ((-(3 / 2)) : ℝ) = x ^ ((1 / 2) : ℝ) / x ^ 2 := fun x hx => rpow_down hx 2 (by norm_num)
  simp only [out_delay_distance, J_delay_distance__cl_max, dtastd_dclmax, dtasstall_dclmax, delay_distance, tas_touchdown, tas_stall, wing_loading_land, touchdown_velocity_ratio, sqrt_eq_rpow]
  (apply hasDerivAt_of_eq; on_goal 1 => (repeat' comp_step))
  all_goals try comp_side
  all_goals try simp (disch := first | assumption | positivity) only [mul_rpow, div_rpow, e0, div_mul_eq_div_div, div_half, inv_half]
  all_goals try simp only [mul_zero, zero_mul, add_zero, zero_add, sub_zero, zero_sub, mul_one, one_mul]
  all_goals try push_cast
  all_goals comp_eq

theorem d_delay_distance__landing_braking_delay (atmosphere_density vehicle_mass wing_area
    landing_glide_to_stall_ratio cl_max landing_braking_delay : ℝ) (h0 : 0 < wing_area) (h1 : 0 <
    cl_max) (h2 : 0 < atmosphere_density) (h3 : 0 < vehicle_mass) :
    HasDerivAt (fun t => out_delay_distance atmosphere_density vehicle_mass wing_area landing_glide_to_stall_ratio cl_max t) (J_delay_distance__landing_braking_delay atmosphere_density vehicle_mass wing_area landing_glide_to_stall_ratio cl_max) landing_braking_delay := by
  simp only [out_delay_distance, J_delay_distance__landing_braking_delay, delay_distance, tas_touchdown, tas_stall, wing_loading_land, touchdown_velocity_ratio, sqrt_eq_rpow]
  (apply hasDerivAt_of_eq; on_goal 1 => (repeat' comp_step))
  all_goals try comp_side
  all_goals try simp (disch := first | assumption | positivity) only [div_mul_eq_div_div, div_half, inv_half]
  all_goals try simp only [mul_zero, zero_mul, add_zero, zero_add, sub_zero, zero_sub, mul_one, one_mul]
  all_goals try push_cast
  all_goals comp_eq

/-- Partial derivatives of `GlideConditionComponent` that are proved correct (the rest is listed in the header). -/
theorem partials_partial (gravity sea_level_density atmosphere_density landing_maximum_sink_rate
    vehicle_mass wing_area landing_glide_to_stall_ratio cl_max landing_maximum_flare_load_factor
    landing_touchdown_sink_rate landing_initial_altitude landing_braking_delay : ℝ) (h0 : 0 <
    wing_area) (h1 : 0 < cl_max) (h2 : 0 < atmosphere_density) (h3 : 0 < vehicle_mass) (h4 : 0 <
    landing_glide_to_stall_ratio) (h5 : -1 < landing_maximum_sink_rate / (60 * ((sqrt ((2 *
    (vehicle_mass / wing_area)) / (cl_max * atmosphere_density))) *
    landing_glide_to_stall_ratio))) (h6 : landing_maximum_sink_rate / (60 * ((sqrt ((2 *
    (vehicle_mass / wing_area)) / (cl_max * atmosphere_density))) * landing_glide_to_stall_ratio))
    < 1) (h7 : 0 < gravity) (h8 : landing_maximum_flare_load_factor - 1 ≠ 0) (h9 : 0 <
    sea_level_density) (h10 : cos (arcsin (landing_maximum_sink_rate / (60 * ((sqrt ((2 *
    (vehicle_mass / wing_area)) / (cl_max * atmosphere_density))) *
    landing_glide_to_stall_ratio)))) ≠ 0) (h11 : tan (arcsin (landing_maximum_sink_rate / (60 *
    ((sqrt ((2 * (vehicle_mass / wing_area)) / (cl_max * atmosphere_density))) *
    landing_glide_to_stall_ratio)))) ≠ 0) (h12 : arcsin (landing_maximum_sink_rate / (60 * ((sqrt
    ((2 * (vehicle_mass / wing_area)) / (cl_max * atmosphere_density))) *
    landing_glide_to_stall_ratio))) ≠ 0) :
    HasDerivAt (fun t => out_flare_alt gravity atmosphere_density landing_maximum_sink_rate
      vehicle_mass wing_area landing_glide_to_stall_ratio cl_max t landing_touchdown_sink_rate)
      (J_flare_alt__landing_maximum_flare_load_factor gravity atmosphere_density
      landing_maximum_sink_rate vehicle_mass wing_area landing_glide_to_stall_ratio cl_max
      landing_maximum_flare_load_factor landing_touchdown_sink_rate)
      landing_maximum_flare_load_factor ∧
    HasDerivAt (fun t => out_flare_alt gravity atmosphere_density landing_maximum_sink_rate
      vehicle_mass wing_area landing_glide_to_stall_ratio cl_max landing_maximum_flare_load_factor
      t) (J_flare_alt__landing_touchdown_sink_rate gravity atmosphere_density vehicle_mass
      wing_area landing_glide_to_stall_ratio cl_max landing_maximum_flare_load_factor
      landing_touchdown_sink_rate) landing_touchdown_sink_rate ∧
    HasDerivAt (fun t => out_landing_initial_velocity t vehicle_mass wing_area
      landing_glide_to_stall_ratio cl_max) (J_landing_initial_velocity__atmosphere_density
      atmosphere_density vehicle_mass wing_area landing_glide_to_stall_ratio cl_max)
      atmosphere_density ∧
    HasDerivAt (fun t => out_landing_initial_velocity atmosphere_density t wing_area
      landing_glide_to_stall_ratio cl_max) (J_landing_initial_velocity__vehicle_mass
      atmosphere_density vehicle_mass wing_area landing_glide_to_stall_ratio cl_max) vehicle_mass ∧
    HasDerivAt (fun t => out_landing_initial_velocity atmosphere_density vehicle_mass t
      landing_glide_to_stall_ratio cl_max) (J_landing_initial_velocity__wing_area
      atmosphere_density vehicle_mass wing_area landing_glide_to_stall_ratio cl_max) wing_area ∧
    HasDerivAt (fun t => out_landing_initial_velocity atmosphere_density vehicle_mass wing_area t
      cl_max) (J_landing_initial_velocity__landing_glide_to_stall_ratio atmosphere_density
      vehicle_mass wing_area cl_max) landing_glide_to_stall_ratio ∧
    HasDerivAt (fun t => out_landing_initial_velocity atmosphere_density vehicle_mass wing_area
      landing_glide_to_stall_ratio t) (J_landing_initial_velocity__cl_max atmosphere_density
      vehicle_mass wing_area landing_glide_to_stall_ratio cl_max) cl_max ∧
    HasDerivAt (fun t => out_landing_stall_velocity t vehicle_mass wing_area cl_max)
      (J_landing_stall_velocity__atmosphere_density atmosphere_density vehicle_mass wing_area
      cl_max) atmosphere_density ∧
    HasDerivAt (fun t => out_landing_stall_velocity atmosphere_density t wing_area cl_max)
      (J_landing_stall_velocity__vehicle_mass atmosphere_density vehicle_mass wing_area cl_max)
      vehicle_mass ∧
    HasDerivAt (fun t => out_landing_stall_velocity atmosphere_density vehicle_mass t cl_max)
      (J_landing_stall_velocity__wing_area atmosphere_density vehicle_mass wing_area cl_max)
      wing_area ∧
    HasDerivAt (fun t => out_landing_stall_velocity atmosphere_density vehicle_mass wing_area t)
      (J_landing_stall_velocity__cl_max atmosphere_density vehicle_mass wing_area cl_max) cl_max ∧
    HasDerivAt (fun t => out_tas_touchdown t vehicle_mass wing_area landing_glide_to_stall_ratio
      cl_max) (J_tas_touchdown__atmosphere_density atmosphere_density vehicle_mass wing_area
      landing_glide_to_stall_ratio cl_max) atmosphere_density ∧
    HasDerivAt (fun t => out_tas_touchdown atmosphere_density t wing_area landing_glide_to_stall_ratio
      cl_max) (J_tas_touchdown__vehicle_mass atmosphere_density vehicle_mass wing_area
      landing_glide_to_stall_ratio cl_max) vehicle_mass ∧
    HasDerivAt (fun t => out_tas_touchdown atmosphere_density vehicle_mass t
      landing_glide_to_stall_ratio cl_max) (J_tas_touchdown__wing_area atmosphere_density
      vehicle_mass wing_area landing_glide_to_stall_ratio cl_max) wing_area ∧
    HasDerivAt (fun t => out_tas_touchdown atmosphere_density vehicle_mass wing_area t cl_max)
      (J_tas_touchdown__landing_glide_to_stall_ratio atmosphere_density vehicle_mass wing_area
      cl_max) landing_glide_to_stall_ratio ∧
    HasDerivAt (fun t => out_tas_touchdown atmosphere_density vehicle_mass wing_area
      landing_glide_to_stall_ratio t) (J_tas_touchdown__cl_max atmosphere_density vehicle_mass
      wing_area landing_glide_to_stall_ratio cl_max) cl_max ∧
    HasDerivAt (fun t => out_density_ratio sea_level_density t) (J_density_ratio__atmosphere_density
      sea_level_density) atmosphere_density ∧
    HasDerivAt (fun t => out_wing_loading_land t wing_area) (J_wing_loading_land__vehicle_mass
      wing_area) vehicle_mass ∧
    HasDerivAt (fun t => out_wing_loading_land vehicle_mass t) (J_wing_loading_land__wing_area
      vehicle_mass wing_area) wing_area ∧
    HasDerivAt (fun t => out_glide_distance atmosphere_density landing_maximum_sink_rate vehicle_mass
      wing_area landing_glide_to_stall_ratio cl_max t) (J_glide_distance__landing_initial_altitude
      atmosphere_density landing_maximum_sink_rate vehicle_mass wing_area
      landing_glide_to_stall_ratio cl_max) landing_initial_altitude ∧
    HasDerivAt (fun t => out_tr_distance gravity atmosphere_density landing_maximum_sink_rate
      vehicle_mass wing_area landing_glide_to_stall_ratio cl_max t landing_touchdown_sink_rate)
      (J_tr_distance__landing_maximum_flare_load_factor gravity atmosphere_density
      landing_maximum_sink_rate vehicle_mass wing_area landing_glide_to_stall_ratio cl_max
      landing_maximum_flare_load_factor landing_touchdown_sink_rate)
      landing_maximum_flare_load_factor ∧
    HasDerivAt (fun t => out_tr_distance gravity atmosphere_density landing_maximum_sink_rate
      vehicle_mass wing_area landing_glide_to_stall_ratio cl_max landing_maximum_flare_load_factor
      t) (J_tr_distance__landing_touchdown_sink_rate gravity atmosphere_density
      landing_maximum_sink_rate vehicle_mass wing_area landing_glide_to_stall_ratio cl_max
      landing_maximum_flare_load_factor landing_touchdown_sink_rate) landing_touchdown_sink_rate ∧
    HasDerivAt (fun t => out_delay_distance t vehicle_mass wing_area landing_glide_to_stall_ratio
      cl_max landing_braking_delay) (J_delay_distance__atmosphere_density atmosphere_density
      vehicle_mass wing_area landing_glide_to_stall_ratio cl_max landing_braking_delay)
      atmosphere_density ∧
    HasDerivAt (fun t => out_delay_distance atmosphere_density t wing_area
      landing_glide_to_stall_ratio cl_max landing_braking_delay) (J_delay_distance__vehicle_mass
      atmosphere_density vehicle_mass wing_area landing_glide_to_stall_ratio cl_max
      landing_braking_delay) vehicle_mass ∧
    HasDerivAt (fun t => out_delay_distance atmosphere_density vehicle_mass t
      landing_glide_to_stall_ratio cl_max landing_braking_delay) (J_delay_distance__wing_area
      atmosphere_density vehicle_mass wing_area landing_glide_to_stall_ratio cl_max
      landing_braking_delay) wing_area ∧
    HasDerivAt (fun t => out_delay_distance atmosphere_density vehicle_mass wing_area t cl_max
      landing_braking_delay) (J_delay_distance__landing_glide_to_stall_ratio atmosphere_density
      vehicle_mass wing_area cl_max landing_braking_delay) landing_glide_to_stall_ratio ∧
    HasDerivAt (fun t => out_delay_distance atmosphere_density vehicle_mass wing_area
      landing_glide_to_stall_ratio t landing_braking_delay) (J_delay_distance__cl_max
      atmosphere_density vehicle_mass wing_area landing_glide_to_stall_ratio cl_max
      landing_braking_delay) cl_max ∧
    HasDerivAt (fun t => out_delay_distance atmosphere_density vehicle_mass wing_area
      landing_glide_to_stall_ratio cl_max t) (J_delay_distance__landing_braking_delay
      atmosphere_density vehicle_mass wing_area landing_glide_to_stall_ratio cl_max)
      landing_braking_delay :=
  ⟨d_flare_alt__landing_maximum_flare_load_factor _ _ _ _ _ _ _ _ _ h0 h1 h2 h3 h4 h5 h6 h7 h8,
    d_flare_alt__landing_touchdown_sink_rate _ _ _ _ _ _ _ _ _ h0 h1 h2 h3 h4 h5 h6 h7 h8,
    d_landing_initial_velocity__atmosphere_density _ _ _ _ _ h0 h1 h2 h3,
    d_landing_initial_velocity__vehicle_mass _ _ _ _ _ h0 h1 h2 h3,
    d_landing_initial_velocity__wing_area _ _ _ _ _ h0 h1 h2 h3,
    d_landing_initial_velocity__landing_glide_to_stall_ratio _ _ _ _ _ h0 h1 h2 h3,
    d_landing_initial_velocity__cl_max _ _ _ _ _ h0 h1 h2 h3,
    d_landing_stall_velocity__atmosphere_density _ _ _ _ h0 h1 h2 h3,
    d_landing_stall_velocity__vehicle_mass _ _ _ _ h0 h1 h2 h3,
    d_landing_stall_velocity__wing_area _ _ _ _ h0 h1 h2 h3, d_landing_stall_velocity__cl_max _ _
    _ _ h0 h1 h2 h3, d_tas_touchdown__atmosphere_density _ _ _ _ _ h0 h1 h2 h3,
    d_tas_touchdown__vehicle_mass _ _ _ _ _ h0 h1 h2 h3, d_tas_touchdown__wing_area _ _ _ _ _ h0
    h1 h2 h3, d_tas_touchdown__landing_glide_to_stall_ratio _ _ _ _ _ h0 h1 h2 h3,
    d_tas_touchdown__cl_max _ _ _ _ _ h0 h1 h2 h3, d_density_ratio__atmosphere_density _ _ h9,
    d_wing_loading_land__vehicle_mass _ _ h0, d_wing_loading_land__wing_area _ _ h0,
    d_glide_distance__landing_initial_altitude _ _ _ _ _ _ _ h0 h1 h2 h3 h4 h5 h6 h10 h11,
    d_tr_distance__landing_maximum_flare_load_factor _ _ _ _ _ _ _ _ _ h0 h1 h2 h3 h7 h8 h4 h5 h6
    h12, d_tr_distance__landing_touchdown_sink_rate _ _ _ _ _ _ _ _ _ h0 h1 h2 h3 h7 h8 h4 h5 h6
    h12, d_delay_distance__atmosphere_density _ _ _ _ _ _ h0 h1 h2 h3,
    d_delay_distance__vehicle_mass _ _ _ _ _ _ h0 h1 h2 h3, d_delay_distance__wing_area _ _ _ _ _
    _ h0 h1 h2 h3, d_delay_distance__landing_glide_to_stall_ratio _ _ _ _ _ _ h0 h1 h2 h3,
    d_delay_distance__cl_max _ _ _ _ _ _ h0 h1 h2 h3, d_delay_distance__landing_braking_delay _ _
    _ _ _ _ h0 h1 h2 h3⟩

end Verif.Comp.MissionTwoDofOdeLandingEom.GlideConditionComponent

namespace Verif.Comp.MissionTwoDofOdeLandingEom.LandingAltitudeComponent
open Real

/-- Output `landing_initial_altitude` of `LandingAltitudeComponent.compute`, aviary/mission/two_dof/ode/landing_eom.py:25 -/
noncomputable def out_landing_initial_altitude (landing_obstacle_height landing_airport_altitude : ℝ) : ℝ :=
  landing_airport_altitude + landing_obstacle_height

/-- Partial of `landing_initial_altitude` with respect to `landing_obstacle_height` as set by `LandingAltitudeComponent`, aviary/mission/two_dof/ode/landing_eom.py:18 -/
noncomputable def J_landing_initial_altitude__landing_obstacle_height : ℝ := 1

/-- Partial of `landing_initial_altitude` with respect to `landing_airport_altitude` as set by `LandingAltitudeComponent`, aviary/mission/two_dof/ode/landing_eom.py:18 -/
noncomputable def J_landing_initial_altitude__landing_airport_altitude : ℝ := 1

theorem d_landing_initial_altitude__landing_obstacle_height (landing_obstacle_height
    landing_airport_altitude : ℝ)  :
    HasDerivAt (fun t => out_landing_initial_altitude t landing_airport_altitude) (J_landing_initial_altitude__landing_obstacle_height) landing_obstacle_height := by
  simp only [out_landing_initial_altitude, J_landing_initial_altitude__landing_obstacle_height]
  (apply hasDerivAt_of_eq; on_goal 1 => (repeat' comp_step))
  all_goals try comp_side
  all_goals try simp only [mul_zero, zero_mul, add_zero, zero_add, sub_zero, zero_sub, mul_one, one_mul]
  all_goals try push_cast
  all_goals comp_eq

theorem d_landing_initial_altitude__landing_airport_altitude (landing_obstacle_height
    landing_airport_altitude : ℝ)  :
    HasDerivAt (fun t => out_landing_initial_altitude landing_obstacle_height t) (J_landing_initial_altitude__landing_airport_altitude) landing_airport_altitude := by
  simp only [out_landing_initial_altitude, J_landing_initial_altitude__landing_airport_altitude]
  (apply hasDerivAt_of_eq; on_goal 1 => (repeat' comp_step))
  all_goals try comp_side
  all_goals try simp only [mul_zero, zero_mul, add_zero, zero_add, sub_zero, zero_sub, mul_one, one_mul]
  all_goals try push_cast
  all_goals comp_eq

/-- Every partial derivative set by `LandingAltitudeComponent` is the derivative of its output. -/
theorem partials (landing_obstacle_height landing_airport_altitude : ℝ) :
    HasDerivAt (fun t => out_landing_initial_altitude t landing_airport_altitude)
      (J_landing_initial_altitude__landing_obstacle_height) landing_obstacle_height ∧
    HasDerivAt (fun t => out_landing_initial_altitude landing_obstacle_height t)
      (J_landing_initial_altitude__landing_airport_altitude) landing_airport_altitude :=
  ⟨d_landing_initial_altitude__landing_obstacle_height _ _,
    d_landing_initial_altitude__landing_airport_altitude _ _⟩

end Verif.Comp.MissionTwoDofOdeLandingEom.LandingAltitudeComponent

