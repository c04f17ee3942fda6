import Verif.Lemmas.CompDeriv

/-! # Partial derivatives of the components of `aviary/mission/two_dof/ode/landing_eom.py`

One node of a vector component is modelled over the real numbers.  Each option that selects a
branch is fixed, one namespace per choice.  `out_x` is the output `x`, `J_x__y` the entry that
`compute_partials` (or `declare_partials` with `val`) assigns, `d_x__y` the proof that the entry is
the derivative.  Inputs an output does not take as argument have no influence on it. -/

set_option linter.all false

namespace Verif.Comp.MissionTwoDofOdeLandingEom.LandingGroundRollComponent
open Real

/-- aviary/mission/two_dof/ode/landing_eom.py:679 -/
noncomputable def dlrl (touchdown_cd touchdown_cl landing_braking_friction_coefficient : ℝ) : ℝ :=
  touchdown_cd - (landing_braking_friction_coefficient * touchdown_cl)

/-- aviary/mission/two_dof/ode/landing_eom.py:680 -/
noncomputable def arat (touchdown_cd touchdown_cl landing_stall_velocity tas_touchdown cl_max landing_braking_friction_coefficient : ℝ) : ℝ :=
  (dlrl touchdown_cd touchdown_cl landing_braking_friction_coefficient) / (cl_max *
    ((landing_stall_velocity / tas_touchdown) ^ 2))

/-- aviary/mission/two_dof/ode/landing_eom.py:681 -/
noncomputable def thrust_to_landing_weight_ratio (thrust_idle vehicle_mass : ℝ) : ℝ :=
  thrust_idle / vehicle_mass

/-- aviary/mission/two_dof/ode/landing_eom.py:682 -/
noncomputable def frat (thrust_idle vehicle_mass landing_braking_friction_coefficient : ℝ) : ℝ :=
  landing_braking_friction_coefficient - (thrust_to_landing_weight_ratio thrust_idle
    vehicle_mass)

/-- aviary/mission/two_dof/ode/landing_eom.py:683 -/
noncomputable def aln (touchdown_cd touchdown_cl landing_stall_velocity tas_touchdown thrust_idle cl_max vehicle_mass landing_braking_friction_coefficient : ℝ) : ℝ :=
  log ((frat thrust_idle vehicle_mass landing_braking_friction_coefficient) / ((frat thrust_idle
    vehicle_mass landing_braking_friction_coefficient) + (arat touchdown_cd touchdown_cl
    landing_stall_velocity tas_touchdown cl_max landing_braking_friction_coefficient)))

/-- aviary/mission/two_dof/ode/landing_eom.py:685 -/
noncomputable def ground_roll_distance (touchdown_cd touchdown_cl landing_stall_velocity tas_touchdown thrust_idle density_ratio wing_loading_land cl_max vehicle_mass landing_braking_friction_coefficient : ℝ) : ℝ :=
  (((-(130287 / 10000)) * wing_loading_land) * (aln touchdown_cd touchdown_cl
    landing_stall_velocity tas_touchdown thrust_idle cl_max vehicle_mass
    landing_braking_friction_coefficient)) / (density_ratio * (dlrl touchdown_cd touchdown_cl
    landing_braking_friction_coefficient))

/-- aviary/mission/two_dof/ode/landing_eom.py:686 -/
noncomputable def total_distance (touchdown_cd touchdown_cl landing_stall_velocity tas_touchdown thrust_idle density_ratio wing_loading_land glide_distance tr_distance delay_distance cl_max vehicle_mass landing_braking_friction_coefficient : ℝ) : ℝ :=
  (((ground_roll_distance touchdown_cd touchdown_cl landing_stall_velocity tas_touchdown
    thrust_idle density_ratio wing_loading_land cl_max vehicle_mass
    landing_braking_friction_coefficient) + tr_distance) + delay_distance) + glide_distance

/-- aviary/mission/two_dof/ode/landing_eom.py:687 -/
noncomputable def average_acceleration (gravity touchdown_cd touchdown_cl landing_stall_velocity tas_touchdown thrust_idle density_ratio wing_loading_land cl_max vehicle_mass landing_braking_friction_coefficient : ℝ) : ℝ :=
  (tas_touchdown ^ 2) / (((ground_roll_distance touchdown_cd touchdown_cl landing_stall_velocity
    tas_touchdown thrust_idle density_ratio wing_loading_land cl_max vehicle_mass
    landing_braking_friction_coefficient) * 2) * gravity)

/-- aviary/mission/two_dof/ode/landing_eom.py:721 -/
noncomputable def ddlrl_dtouchdowncl (landing_braking_friction_coefficient : ℝ) : ℝ :=
  -landing_braking_friction_coefficient

/-- aviary/mission/two_dof/ode/landing_eom.py:722 -/
noncomputable def ddlrl_dmub (touchdown_cl : ℝ) : ℝ := -touchdown_cl

/-- aviary/mission/two_dof/ode/landing_eom.py:724 -/
noncomputable def darat_dtouchdowncd (landing_stall_velocity tas_touchdown cl_max : ℝ) : ℝ :=
  1 / (cl_max * ((landing_stall_velocity / tas_touchdown) ^ 2))

/-- aviary/mission/two_dof/ode/landing_eom.py:725 -/
noncomputable def darat_dtouchdowncl (landing_stall_velocity tas_touchdown cl_max landing_braking_friction_coefficient : ℝ) : ℝ :=
  (ddlrl_dtouchdowncl landing_braking_friction_coefficient) / (cl_max * ((landing_stall_velocity
    / tas_touchdown) ^ 2))

/-- aviary/mission/two_dof/ode/landing_eom.py:726 -/
noncomputable def darat_dmub (touchdown_cl landing_stall_velocity tas_touchdown cl_max : ℝ) : ℝ :=
  (ddlrl_dmub touchdown_cl) / (cl_max * ((landing_stall_velocity / tas_touchdown) ^ 2))

/-- aviary/mission/two_dof/ode/landing_eom.py:727 -/
noncomputable def darat_dclmax (touchdown_cd touchdown_cl landing_stall_velocity tas_touchdown cl_max landing_braking_friction_coefficient : ℝ) : ℝ :=
  (-(dlrl touchdown_cd touchdown_cl landing_braking_friction_coefficient)) / ((cl_max ^ 2) *
    ((landing_stall_velocity / tas_touchdown) ^ 2))

/-- aviary/mission/two_dof/ode/landing_eom.py:728 -/
noncomputable def darat_dtasstall (touchdown_cd touchdown_cl landing_stall_velocity tas_touchdown cl_max landing_braking_friction_coefficient : ℝ) : ℝ :=
  ((-2) * (dlrl touchdown_cd touchdown_cl landing_braking_friction_coefficient)) / (cl_max *
    ((landing_stall_velocity ^ 3) / (tas_touchdown ^ 2)))

/-- aviary/mission/two_dof/ode/landing_eom.py:729 -/
noncomputable def darat_dtastouchdown (touchdown_cd touchdown_cl landing_stall_velocity tas_touchdown cl_max landing_braking_friction_coefficient : ℝ) : ℝ :=
  ((2 * tas_touchdown) * (dlrl touchdown_cd touchdown_cl landing_braking_friction_coefficient))
    / (cl_max * (landing_stall_velocity ^ 2))

/-- aviary/mission/two_dof/ode/landing_eom.py:731 -/
noncomputable def dfrat_dthrustidle (vehicle_mass : ℝ) : ℝ := (-1) / vehicle_mass

/-- aviary/mission/two_dof/ode/landing_eom.py:732 -/
noncomputable def dfrat_dweight (thrust_idle vehicle_mass : ℝ) : ℝ :=
  thrust_idle / (vehicle_mass ^ 2)

/-- aviary/mission/two_dof/ode/landing_eom.py:735 -/
noncomputable def daln_dtouchdowncd (touchdown_cd touchdown_cl landing_stall_velocity tas_touchdown thrust_idle cl_max vehicle_mass landing_braking_friction_coefficient : ℝ) : ℝ :=
  ((1 / ((frat thrust_idle vehicle_mass landing_braking_friction_coefficient) / ((frat
    thrust_idle vehicle_mass landing_braking_friction_coefficient) + (arat touchdown_cd
    touchdown_cl landing_stall_velocity tas_touchdown cl_max
    landing_braking_friction_coefficient)))) * ((-(frat thrust_idle vehicle_mass
    landing_braking_friction_coefficient)) / (((frat thrust_idle vehicle_mass
    landing_braking_friction_coefficient) + (arat touchdown_cd touchdown_cl
    landing_stall_velocity tas_touchdown cl_max landing_braking_friction_coefficient)) ^ 2))) *
    (darat_dtouchdowncd landing_stall_velocity tas_touchdown cl_max)

/-- aviary/mission/two_dof/ode/landing_eom.py:738 -/
noncomputable def daln_dtouchdowncl (touchdown_cd touchdown_cl landing_stall_velocity tas_touchdown thrust_idle cl_max vehicle_mass landing_braking_friction_coefficient : ℝ) : ℝ :=
  ((1 / ((frat thrust_idle vehicle_mass landing_braking_friction_coefficient) / ((frat
    thrust_idle vehicle_mass landing_braking_friction_coefficient) + (arat touchdown_cd
    touchdown_cl landing_stall_velocity tas_touchdown cl_max
    landing_braking_friction_coefficient)))) * ((-(frat thrust_idle vehicle_mass
    landing_braking_friction_coefficient)) / (((frat thrust_idle vehicle_mass
    landing_braking_friction_coefficient) + (arat touchdown_cd touchdown_cl
    landing_stall_velocity tas_touchdown cl_max landing_braking_friction_coefficient)) ^ 2))) *
    (darat_dtouchdowncl landing_stall_velocity tas_touchdown cl_max
    landing_braking_friction_coefficient)

/-- aviary/mission/two_dof/ode/landing_eom.py:741 -/
noncomputable def daln_dmub (touchdown_cd touchdown_cl landing_stall_velocity tas_touchdown thrust_idle cl_max vehicle_mass landing_braking_friction_coefficient : ℝ) : ℝ :=
  ((1 / ((frat thrust_idle vehicle_mass landing_braking_friction_coefficient) / ((frat
    thrust_idle vehicle_mass landing_braking_friction_coefficient) + (arat touchdown_cd
    touchdown_cl landing_stall_velocity tas_touchdown cl_max
    landing_braking_friction_coefficient)))) * (((frat thrust_idle vehicle_mass
    landing_braking_friction_coefficient) + (arat touchdown_cd touchdown_cl
    landing_stall_velocity tas_touchdown cl_max landing_braking_friction_coefficient)) - ((frat
    thrust_idle vehicle_mass landing_braking_friction_coefficient) * (1 + (darat_dmub
    touchdown_cl landing_stall_velocity tas_touchdown cl_max))))) / (((frat thrust_idle
    vehicle_mass landing_braking_friction_coefficient) + (arat touchdown_cd touchdown_cl
    landing_stall_velocity tas_touchdown cl_max landing_braking_friction_coefficient)) ^ 2)

/-- aviary/mission/two_dof/ode/landing_eom.py:747 -/
noncomputable def daln_dthrustidle (touchdown_cd touchdown_cl landing_stall_velocity tas_touchdown thrust_idle cl_max vehicle_mass landing_braking_friction_coefficient : ℝ) : ℝ :=
  (((1 / ((frat thrust_idle vehicle_mass landing_braking_friction_coefficient) / ((frat
    thrust_idle vehicle_mass landing_braking_friction_coefficient) + (arat touchdown_cd
    touchdown_cl landing_stall_velocity tas_touchdown cl_max
    landing_braking_friction_coefficient)))) * (((frat thrust_idle vehicle_mass
    landing_braking_friction_coefficient) + (arat touchdown_cd touchdown_cl
    landing_stall_velocity tas_touchdown cl_max landing_braking_friction_coefficient)) - (frat
    thrust_idle vehicle_mass landing_braking_friction_coefficient))) / (((frat thrust_idle
    vehicle_mass landing_braking_friction_coefficient) + (arat touchdown_cd touchdown_cl
    landing_stall_velocity tas_touchdown cl_max landing_braking_friction_coefficient)) ^ 2)) *
    (dfrat_dthrustidle vehicle_mass)

/-- aviary/mission/two_dof/ode/landing_eom.py:754 -/
noncomputable def daln_dweight (touchdown_cd touchdown_cl landing_stall_velocity tas_touchdown thrust_idle cl_max vehicle_mass landing_braking_friction_coefficient : ℝ) : ℝ :=
  (((1 / ((frat thrust_idle vehicle_mass landing_braking_friction_coefficient) / ((frat
    thrust_idle vehicle_mass landing_braking_friction_coefficient) + (arat touchdown_cd
    touchdown_cl landing_stall_velocity tas_touchdown cl_max
    landing_braking_friction_coefficient)))) * (((frat thrust_idle vehicle_mass
    landing_braking_friction_coefficient) + (arat touchdown_cd touchdown_cl
    landing_stall_velocity tas_touchdown cl_max landing_braking_friction_coefficient)) - (frat
    thrust_idle vehicle_mass landing_braking_friction_coefficient))) / (((frat thrust_idle
    vehicle_mass landing_braking_friction_coefficient) + (arat touchdown_cd touchdown_cl
    landing_stall_velocity tas_touchdown cl_max landing_braking_friction_coefficient)) ^ 2)) *
    (dfrat_dweight thrust_idle vehicle_mass)

/-- aviary/mission/two_dof/ode/landing_eom.py:757 -/
noncomputable def daln_dclmax (touchdown_cd touchdown_cl landing_stall_velocity tas_touchdown thrust_idle cl_max vehicle_mass landing_braking_friction_coefficient : ℝ) : ℝ :=
  (1 / ((frat thrust_idle vehicle_mass landing_braking_friction_coefficient) / ((frat
    thrust_idle vehicle_mass landing_braking_friction_coefficient) + (arat touchdown_cd
    touchdown_cl landing_stall_velocity tas_touchdown cl_max
    landing_braking_friction_coefficient)))) * (((-(frat thrust_idle vehicle_mass
    landing_braking_friction_coefficient)) / (((frat thrust_idle vehicle_mass
    landing_braking_friction_coefficient) + (arat touchdown_cd touchdown_cl
    landing_stall_velocity tas_touchdown cl_max landing_braking_friction_coefficient)) ^ 2)) *
    (darat_dclmax touchdown_cd touchdown_cl landing_stall_velocity tas_touchdown cl_max
    landing_braking_friction_coefficient))

/-- aviary/mission/two_dof/ode/landing_eom.py:758 -/
noncomputable def daln_dtasstall (touchdown_cd touchdown_cl landing_stall_velocity tas_touchdown thrust_idle cl_max vehicle_mass landing_braking_friction_coefficient : ℝ) : ℝ :=
  (1 / ((frat thrust_idle vehicle_mass landing_braking_friction_coefficient) / ((frat
    thrust_idle vehicle_mass landing_braking_friction_coefficient) + (arat touchdown_cd
    touchdown_cl landing_stall_velocity tas_touchdown cl_max
    landing_braking_friction_coefficient)))) * (((-(frat thrust_idle vehicle_mass
    landing_braking_friction_coefficient)) / (((frat thrust_idle vehicle_mass
    landing_braking_friction_coefficient) + (arat touchdown_cd touchdown_cl
    landing_stall_velocity tas_touchdown cl_max landing_braking_friction_coefficient)) ^ 2)) *
    (darat_dtasstall touchdown_cd touchdown_cl landing_stall_velocity tas_touchdown cl_max
    landing_braking_friction_coefficient))

/-- aviary/mission/two_dof/ode/landing_eom.py:759 -/
noncomputable def daln_dtastouchdown (touchdown_cd touchdown_cl landing_stall_velocity tas_touchdown thrust_idle cl_max vehicle_mass landing_braking_friction_coefficient : ℝ) : ℝ :=
  (1 / ((frat thrust_idle vehicle_mass landing_braking_friction_coefficient) / ((frat
    thrust_idle vehicle_mass landing_braking_friction_coefficient) + (arat touchdown_cd
    touchdown_cl landing_stall_velocity tas_touchdown cl_max
    landing_braking_friction_coefficient)))) * (((-(frat thrust_idle vehicle_mass
    landing_braking_friction_coefficient)) / (((frat thrust_idle vehicle_mass
    landing_braking_friction_coefficient) + (arat touchdown_cd touchdown_cl
    landing_stall_velocity tas_touchdown cl_max landing_braking_friction_coefficient)) ^ 2)) *
    (darat_dtastouchdown touchdown_cd touchdown_cl landing_stall_velocity tas_touchdown cl_max
    landing_braking_friction_coefficient))

/-- aviary/mission/two_dof/ode/landing_eom.py:764 -/
noncomputable def dgrd_dweight (touchdown_cd touchdown_cl landing_stall_velocity tas_touchdown thrust_idle density_ratio wing_loading_land cl_max vehicle_mass landing_braking_friction_coefficient : ℝ) : ℝ :=
  (((-(130287 / 10000)) * wing_loading_land) * (daln_dweight touchdown_cd touchdown_cl
    landing_stall_velocity tas_touchdown thrust_idle cl_max vehicle_mass
    landing_braking_friction_coefficient)) / (density_ratio * (dlrl touchdown_cd touchdown_cl
    landing_braking_friction_coefficient))

/-- aviary/mission/two_dof/ode/landing_eom.py:766 -/
noncomputable def dgrd_dwingloadingland (touchdown_cd touchdown_cl landing_stall_velocity tas_touchdown thrust_idle density_ratio cl_max vehicle_mass landing_braking_friction_coefficient : ℝ) : ℝ :=
  ((-(130287 / 10000)) * (aln touchdown_cd touchdown_cl landing_stall_velocity tas_touchdown
    thrust_idle cl_max vehicle_mass landing_braking_friction_coefficient)) / (density_ratio *
    (dlrl touchdown_cd touchdown_cl landing_braking_friction_coefficient))

/-- aviary/mission/two_dof/ode/landing_eom.py:769 -/
noncomputable def dgrd_ddensityratio (touchdown_cd touchdown_cl landing_stall_velocity tas_touchdown thrust_idle density_ratio wing_loading_land cl_max vehicle_mass landing_braking_friction_coefficient : ℝ) : ℝ :=
  (((130287 / 10000) * wing_loading_land) * (aln touchdown_cd touchdown_cl
    landing_stall_velocity tas_touchdown thrust_idle cl_max vehicle_mass
    landing_braking_friction_coefficient)) / ((density_ratio ^ 2) * (dlrl touchdown_cd
    touchdown_cl landing_braking_friction_coefficient))

/-- aviary/mission/two_dof/ode/landing_eom.py:772 -/
noncomputable def dgrd_dtouchdowncd (touchdown_cd touchdown_cl landing_stall_velocity tas_touchdown thrust_idle density_ratio wing_loading_land cl_max vehicle_mass landing_braking_friction_coefficient : ℝ) : ℝ :=
  (((-(130287 / 10000)) * (wing_loading_land / density_ratio)) * (((dlrl touchdown_cd
    touchdown_cl landing_braking_friction_coefficient) * (daln_dtouchdowncd touchdown_cd
    touchdown_cl landing_stall_velocity tas_touchdown thrust_idle cl_max vehicle_mass
    landing_braking_friction_coefficient)) - (aln touchdown_cd touchdown_cl
    landing_stall_velocity tas_touchdown thrust_idle cl_max vehicle_mass
    landing_braking_friction_coefficient))) / ((dlrl touchdown_cd touchdown_cl
    landing_braking_friction_coefficient) ^ 2)

/-- aviary/mission/two_dof/ode/landing_eom.py:778 -/
noncomputable def dgrd_dtouchdowncl (touchdown_cd touchdown_cl landing_stall_velocity tas_touchdown thrust_idle density_ratio wing_loading_land cl_max vehicle_mass landing_braking_friction_coefficient : ℝ) : ℝ :=
  (((-(130287 / 10000)) * (wing_loading_land / density_ratio)) * (((dlrl touchdown_cd
    touchdown_cl landing_braking_friction_coefficient) * (daln_dtouchdowncl touchdown_cd
    touchdown_cl landing_stall_velocity tas_touchdown thrust_idle cl_max vehicle_mass
    landing_braking_friction_coefficient)) - ((aln touchdown_cd touchdown_cl
    landing_stall_velocity tas_touchdown thrust_idle cl_max vehicle_mass
    landing_braking_friction_coefficient) * (ddlrl_dtouchdowncl
    landing_braking_friction_coefficient)))) / ((dlrl touchdown_cd touchdown_cl
    landing_braking_friction_coefficient) ^ 2)

/-- aviary/mission/two_dof/ode/landing_eom.py:784 -/
noncomputable def dgrd_dmub (touchdown_cd touchdown_cl landing_stall_velocity tas_touchdown thrust_idle density_ratio wing_loading_land cl_max vehicle_mass landing_braking_friction_coefficient : ℝ) : ℝ :=
  (((-(130287 / 10000)) * (wing_loading_land / density_ratio)) * (((dlrl touchdown_cd
    touchdown_cl landing_braking_friction_coefficient) * (daln_dmub touchdown_cd touchdown_cl
    landing_stall_velocity tas_touchdown thrust_idle cl_max vehicle_mass
    landing_braking_friction_coefficient)) - ((aln touchdown_cd touchdown_cl
    landing_stall_velocity tas_touchdown thrust_idle cl_max vehicle_mass
    landing_braking_friction_coefficient) * (ddlrl_dmub touchdown_cl)))) / ((dlrl touchdown_cd
    touchdown_cl landing_braking_friction_coefficient) ^ 2)

/-- aviary/mission/two_dof/ode/landing_eom.py:790 -/
noncomputable def dgrd_dthrustidle (touchdown_cd touchdown_cl landing_stall_velocity tas_touchdown thrust_idle density_ratio wing_loading_land cl_max vehicle_mass landing_braking_friction_coefficient : ℝ) : ℝ :=
  (((-(130287 / 10000)) * wing_loading_land) * (daln_dthrustidle touchdown_cd touchdown_cl
    landing_stall_velocity tas_touchdown thrust_idle cl_max vehicle_mass
    landing_braking_friction_coefficient)) / (density_ratio * (dlrl touchdown_cd touchdown_cl
    landing_braking_friction_coefficient))

/-- aviary/mission/two_dof/ode/landing_eom.py:794 -/
noncomputable def dgrd_dclmax (touchdown_cd touchdown_cl landing_stall_velocity tas_touchdown thrust_idle density_ratio wing_loading_land cl_max vehicle_mass landing_braking_friction_coefficient : ℝ) : ℝ :=
  (((-(130287 / 10000)) * wing_loading_land) * (daln_dclmax touchdown_cd touchdown_cl
    landing_stall_velocity tas_touchdown thrust_idle cl_max vehicle_mass
    landing_braking_friction_coefficient)) / (density_ratio * (dlrl touchdown_cd touchdown_cl
    landing_braking_friction_coefficient))

/-- aviary/mission/two_dof/ode/landing_eom.py:797 -/
noncomputable def dgrd_dtasstall (touchdown_cd touchdown_cl landing_stall_velocity tas_touchdown thrust_idle density_ratio wing_loading_land cl_max vehicle_mass landing_braking_friction_coefficient : ℝ) : ℝ :=
  (((-(130287 / 10000)) * wing_loading_land) * (daln_dtasstall touchdown_cd touchdown_cl
    landing_stall_velocity tas_touchdown thrust_idle cl_max vehicle_mass
    landing_braking_friction_coefficient)) / (density_ratio * (dlrl touchdown_cd touchdown_cl
    landing_braking_friction_coefficient))

/-- aviary/mission/two_dof/ode/landing_eom.py:800 -/
noncomputable def dgrd_dtastouchdown (touchdown_cd touchdown_cl landing_stall_velocity tas_touchdown thrust_idle density_ratio wing_loading_land cl_max vehicle_mass landing_braking_friction_coefficient : ℝ) : ℝ :=
  (((-(130287 / 10000)) * wing_loading_land) * (daln_dtastouchdown touchdown_cd touchdown_cl
    landing_stall_velocity tas_touchdown thrust_idle cl_max vehicle_mass
    landing_braking_friction_coefficient)) / (density_ratio * (dlrl touchdown_cd touchdown_cl
    landing_braking_friction_coefficient))

/-- Output `ground_roll_distance` of `LandingGroundRollComponent.compute`, aviary/mission/two_dof/ode/landing_eom.py:689 -/
noncomputable def out_ground_roll_distance (touchdown_cd touchdown_cl landing_stall_velocity tas_touchdown thrust_idle density_ratio wing_loading_land cl_max vehicle_mass landing_braking_friction_coefficient : ℝ) : ℝ :=
  ground_roll_distance touchdown_cd touchdown_cl landing_stall_velocity tas_touchdown
    thrust_idle density_ratio wing_loading_land cl_max vehicle_mass
    landing_braking_friction_coefficient

/-- Output `landing_ground_distance` of `LandingGroundRollComponent.compute`, aviary/mission/two_dof/ode/landing_eom.py:690 -/
noncomputable def out_landing_ground_distance (touchdown_cd touchdown_cl landing_stall_velocity tas_touchdown thrust_idle density_ratio wing_loading_land glide_distance tr_distance delay_distance cl_max vehicle_mass landing_braking_friction_coefficient : ℝ) : ℝ :=
  total_distance touchdown_cd touchdown_cl landing_stall_velocity tas_touchdown thrust_idle
    density_ratio wing_loading_land glide_distance tr_distance delay_distance cl_max
    vehicle_mass landing_braking_friction_coefficient

/-- Output `average_acceleration` of `LandingGroundRollComponent.compute`, aviary/mission/two_dof/ode/landing_eom.py:691 -/
noncomputable def out_average_acceleration (gravity touchdown_cd touchdown_cl landing_stall_velocity tas_touchdown thrust_idle density_ratio wing_loading_land cl_max vehicle_mass landing_braking_friction_coefficient : ℝ) : ℝ :=
  average_acceleration gravity touchdown_cd touchdown_cl landing_stall_velocity tas_touchdown
    thrust_idle density_ratio wing_loading_land cl_max vehicle_mass
    landing_braking_friction_coefficient

/-- Partial of `ground_roll_distance` with respect to `wing_loading_land` as set by `LandingGroundRollComponent`, aviary/mission/two_dof/ode/landing_eom.py:766 -/
noncomputable def J_ground_roll_distance__wing_loading_land (touchdown_cd touchdown_cl landing_stall_velocity tas_touchdown thrust_idle density_ratio cl_max vehicle_mass landing_braking_friction_coefficient : ℝ) : ℝ :=
  dgrd_dwingloadingland touchdown_cd touchdown_cl landing_stall_velocity tas_touchdown
    thrust_idle density_ratio cl_max vehicle_mass landing_braking_friction_coefficient

/-- Partial of `ground_roll_distance` with respect to `density_ratio` as set by `LandingGroundRollComponent`, aviary/mission/two_dof/ode/landing_eom.py:769 -/
noncomputable def J_ground_roll_distance__density_ratio (touchdown_cd touchdown_cl landing_stall_velocity tas_touchdown thrust_idle density_ratio wing_loading_land cl_max vehicle_mass landing_braking_friction_coefficient : ℝ) : ℝ :=
  dgrd_ddensityratio touchdown_cd touchdown_cl landing_stall_velocity tas_touchdown thrust_idle
    density_ratio wing_loading_land cl_max vehicle_mass landing_braking_friction_coefficient

/-- Partial of `ground_roll_distance` with respect to `touchdown_cd` as set by `LandingGroundRollComponent`, aviary/mission/two_dof/ode/landing_eom.py:772 -/
noncomputable def J_ground_roll_distance__touchdown_cd (touchdown_cd touchdown_cl landing_stall_velocity tas_touchdown thrust_idle density_ratio wing_loading_land cl_max vehicle_mass landing_braking_friction_coefficient : ℝ) : ℝ :=
  dgrd_dtouchdowncd touchdown_cd touchdown_cl landing_stall_velocity tas_touchdown thrust_idle
    density_ratio wing_loading_land cl_max vehicle_mass landing_braking_friction_coefficient

/-- Partial of `ground_roll_distance` with respect to `touchdown_cl` as set by `LandingGroundRollComponent`, aviary/mission/two_dof/ode/landing_eom.py:778 -/
noncomputable def J_ground_roll_distance__touchdown_cl (touchdown_cd touchdown_cl landing_stall_velocity tas_touchdown thrust_idle density_ratio wing_loading_land cl_max vehicle_mass landing_braking_friction_coefficient : ℝ) : ℝ :=
  dgrd_dtouchdowncl touchdown_cd touchdown_cl landing_stall_velocity tas_touchdown thrust_idle
    density_ratio wing_loading_land cl_max vehicle_mass landing_braking_friction_coefficient

/-- Partial of `ground_roll_distance` with respect to `landing_braking_friction_coefficient` as set by `LandingGroundRollComponent`, aviary/mission/two_dof/ode/landing_eom.py:784 -/
noncomputable def J_ground_roll_distance__landing_braking_friction_coefficient (touchdown_cd touchdown_cl landing_stall_velocity tas_touchdown thrust_idle density_ratio wing_loading_land cl_max vehicle_mass landing_braking_friction_coefficient : ℝ) : ℝ :=
  dgrd_dmub touchdown_cd touchdown_cl landing_stall_velocity tas_touchdown thrust_idle
    density_ratio wing_loading_land cl_max vehicle_mass landing_braking_friction_coefficient

/-- Partial of `ground_roll_distance` with respect to `thrust_idle` as set by `LandingGroundRollComponent`, aviary/mission/two_dof/ode/landing_eom.py:790 -/
noncomputable def J_ground_roll_distance__thrust_idle (touchdown_cd touchdown_cl landing_stall_velocity tas_touchdown thrust_idle density_ratio wing_loading_land cl_max vehicle_mass landing_braking_friction_coefficient : ℝ) : ℝ :=
  dgrd_dthrustidle touchdown_cd touchdown_cl landing_stall_velocity tas_touchdown thrust_idle
    density_ratio wing_loading_land cl_max vehicle_mass landing_braking_friction_coefficient

/-- Partial of `ground_roll_distance` with respect to `vehicle_mass` as set by `LandingGroundRollComponent`, aviary/mission/two_dof/ode/landing_eom.py:793 -/
noncomputable def J_ground_roll_distance__vehicle_mass (touchdown_cd touchdown_cl landing_stall_velocity tas_touchdown thrust_idle density_ratio wing_loading_land cl_max vehicle_mass landing_braking_friction_coefficient : ℝ) : ℝ :=
  dgrd_dweight touchdown_cd touchdown_cl landing_stall_velocity tas_touchdown thrust_idle
    density_ratio wing_loading_land cl_max vehicle_mass landing_braking_friction_coefficient

/-- Partial of `ground_roll_distance` with respect to `cl_max` as set by `LandingGroundRollComponent`, aviary/mission/two_dof/ode/landing_eom.py:794 -/
noncomputable def J_ground_roll_distance__cl_max (touchdown_cd touchdown_cl landing_stall_velocity tas_touchdown thrust_idle density_ratio wing_loading_land cl_max vehicle_mass landing_braking_friction_coefficient : ℝ) : ℝ :=
  dgrd_dclmax touchdown_cd touchdown_cl landing_stall_velocity tas_touchdown thrust_idle
    density_ratio wing_loading_land cl_max vehicle_mass landing_braking_friction_coefficient

/-- Partial of `ground_roll_distance` with respect to `landing_stall_velocity` as set by `LandingGroundRollComponent`, aviary/mission/two_dof/ode/landing_eom.py:797 -/
noncomputable def J_ground_roll_distance__landing_stall_velocity (touchdown_cd touchdown_cl landing_stall_velocity tas_touchdown thrust_idle density_ratio wing_loading_land cl_max vehicle_mass landing_braking_friction_coefficient : ℝ) : ℝ :=
  dgrd_dtasstall touchdown_cd touchdown_cl landing_stall_velocity tas_touchdown thrust_idle
    density_ratio wing_loading_land cl_max vehicle_mass landing_braking_friction_coefficient

/-- Partial of `ground_roll_distance` with respect to `tas_touchdown` as set by `LandingGroundRollComponent`, aviary/mission/two_dof/ode/landing_eom.py:800 -/
noncomputable def J_ground_roll_distance__tas_touchdown (touchdown_cd touchdown_cl landing_stall_velocity tas_touchdown thrust_idle density_ratio wing_loading_land cl_max vehicle_mass landing_braking_friction_coefficient : ℝ) : ℝ :=
  dgrd_dtastouchdown touchdown_cd touchdown_cl landing_stall_velocity tas_touchdown thrust_idle
    density_ratio wing_loading_land cl_max vehicle_mass landing_braking_friction_coefficient

/-- Partial of `landing_ground_distance` with respect to `wing_loading_land` as set by `LandingGroundRollComponent`, aviary/mission/two_dof/ode/landing_eom.py:804 -/
noncomputable def J_landing_ground_distance__wing_loading_land (touchdown_cd touchdown_cl landing_stall_velocity tas_touchdown thrust_idle density_ratio cl_max vehicle_mass landing_braking_friction_coefficient : ℝ) : ℝ :=
  dgrd_dwingloadingland touchdown_cd touchdown_cl landing_stall_velocity tas_touchdown
    thrust_idle density_ratio cl_max vehicle_mass landing_braking_friction_coefficient

/-- Partial of `landing_ground_distance` with respect to `density_ratio` as set by `LandingGroundRollComponent`, aviary/mission/two_dof/ode/landing_eom.py:805 -/
noncomputable def J_landing_ground_distance__density_ratio (touchdown_cd touchdown_cl landing_stall_velocity tas_touchdown thrust_idle density_ratio wing_loading_land cl_max vehicle_mass landing_braking_friction_coefficient : ℝ) : ℝ :=
  dgrd_ddensityratio touchdown_cd touchdown_cl landing_stall_velocity tas_touchdown thrust_idle
    density_ratio wing_loading_land cl_max vehicle_mass landing_braking_friction_coefficient

/-- Partial of `landing_ground_distance` with respect to `touchdown_cd` as set by `LandingGroundRollComponent`, aviary/mission/two_dof/ode/landing_eom.py:806 -/
noncomputable def J_landing_ground_distance__touchdown_cd (touchdown_cd touchdown_cl landing_stall_velocity tas_touchdown thrust_idle density_ratio wing_loading_land cl_max vehicle_mass landing_braking_friction_coefficient : ℝ) : ℝ :=
  dgrd_dtouchdowncd touchdown_cd touchdown_cl landing_stall_velocity tas_touchdown thrust_idle
    density_ratio wing_loading_land cl_max vehicle_mass landing_braking_friction_coefficient

/-- Partial of `landing_ground_distance` with respect to `touchdown_cl` as set by `LandingGroundRollComponent`, aviary/mission/two_dof/ode/landing_eom.py:807 -/
noncomputable def J_landing_ground_distance__touchdown_cl (touchdown_cd touchdown_cl landing_stall_velocity tas_touchdown thrust_idle density_ratio wing_loading_land cl_max vehicle_mass landing_braking_friction_coefficient : ℝ) : ℝ :=
  dgrd_dtouchdowncl touchdown_cd touchdown_cl landing_stall_velocity tas_touchdown thrust_idle
    density_ratio wing_loading_land cl_max vehicle_mass landing_braking_friction_coefficient

/-- Partial of `landing_ground_distance` with respect to `landing_braking_friction_coefficient` as set by `LandingGroundRollComponent`, aviary/mission/two_dof/ode/landing_eom.py:808 -/
noncomputable def J_landing_ground_distance__landing_braking_friction_coefficient (touchdown_cd touchdown_cl landing_stall_velocity tas_touchdown thrust_idle density_ratio wing_loading_land cl_max vehicle_mass landing_braking_friction_coefficient : ℝ) : ℝ :=
  dgrd_dmub touchdown_cd touchdown_cl landing_stall_velocity tas_touchdown thrust_idle
    density_ratio wing_loading_land cl_max vehicle_mass landing_braking_friction_coefficient

/-- Partial of `landing_ground_distance` with respect to `thrust_idle` as set by `LandingGroundRollComponent`, aviary/mission/two_dof/ode/landing_eom.py:809 -/
noncomputable def J_landing_ground_distance__thrust_idle (touchdown_cd touchdown_cl landing_stall_velocity tas_touchdown thrust_idle density_ratio wing_loading_land cl_max vehicle_mass landing_braking_friction_coefficient : ℝ) : ℝ :=
  dgrd_dthrustidle touchdown_cd touchdown_cl landing_stall_velocity tas_touchdown thrust_idle
    density_ratio wing_loading_land cl_max vehicle_mass landing_braking_friction_coefficient

/-- Partial of `landing_ground_distance` with respect to `vehicle_mass` as set by `LandingGroundRollComponent`, aviary/mission/two_dof/ode/landing_eom.py:810 -/
noncomputable def J_landing_ground_distance__vehicle_mass (touchdown_cd touchdown_cl landing_stall_velocity tas_touchdown thrust_idle density_ratio wing_loading_land cl_max vehicle_mass landing_braking_friction_coefficient : ℝ) : ℝ :=
  dgrd_dweight touchdown_cd touchdown_cl landing_stall_velocity tas_touchdown thrust_idle
    density_ratio wing_loading_land cl_max vehicle_mass landing_braking_friction_coefficient

/-- Partial of `landing_ground_distance` with respect to `cl_max` as set by `LandingGroundRollComponent`, aviary/mission/two_dof/ode/landing_eom.py:811 -/
noncomputable def J_landing_ground_distance__cl_max (touchdown_cd touchdown_cl landing_stall_velocity tas_touchdown thrust_idle density_ratio wing_loading_land cl_max vehicle_mass landing_braking_friction_coefficient : ℝ) : ℝ :=
  dgrd_dclmax touchdown_cd touchdown_cl landing_stall_velocity tas_touchdown thrust_idle
    density_ratio wing_loading_land cl_max vehicle_mass landing_braking_friction_coefficient

/-- Partial of `landing_ground_distance` with respect to `landing_stall_velocity` as set by `LandingGroundRollComponent`, aviary/mission/two_dof/ode/landing_eom.py:812 -/
noncomputable def J_landing_ground_distance__landing_stall_velocity (touchdown_cd touchdown_cl landing_stall_velocity tas_touchdown thrust_idle density_ratio wing_loading_land cl_max vehicle_mass landing_braking_friction_coefficient : ℝ) : ℝ :=
  dgrd_dtasstall touchdown_cd touchdown_cl landing_stall_velocity tas_touchdown thrust_idle
    density_ratio wing_loading_land cl_max vehicle_mass landing_braking_friction_coefficient

/-- Partial of `landing_ground_distance` with respect to `tas_touchdown` as set by `LandingGroundRollComponent`, aviary/mission/two_dof/ode/landing_eom.py:813 -/
noncomputable def J_landing_ground_distance__tas_touchdown (touchdown_cd touchdown_cl landing_stall_velocity tas_touchdown thrust_idle density_ratio wing_loading_land cl_max vehicle_mass landing_braking_friction_coefficient : ℝ) : ℝ :=
  dgrd_dtastouchdown touchdown_cd touchdown_cl landing_stall_velocity tas_touchdown thrust_idle
    density_ratio wing_loading_land cl_max vehicle_mass landing_braking_friction_coefficient

/-- Partial of `landing_ground_distance` with respect to `tr_distance` as set by `LandingGroundRollComponent`, aviary/mission/two_dof/ode/landing_eom.py:814 -/
noncomputable def J_landing_ground_distance__tr_distance : ℝ := 1

/-- Partial of `landing_ground_distance` with respect to `delay_distance` as set by `LandingGroundRollComponent`, aviary/mission/two_dof/ode/landing_eom.py:815 -/
noncomputable def J_landing_ground_distance__delay_distance : ℝ := 1

/-- Partial of `landing_ground_distance` with respect to `glide_distance` as set by `LandingGroundRollComponent`, aviary/mission/two_dof/ode/landing_eom.py:816 -/
noncomputable def J_landing_ground_distance__glide_distance : ℝ := 1

/-- Partial of `average_acceleration` with respect to `wing_loading_land` as set by `LandingGroundRollComponent`, aviary/mission/two_dof/ode/landing_eom.py:818 -/
noncomputable def J_average_acceleration__wing_loading_land (gravity touchdown_cd touchdown_cl landing_stall_velocity tas_touchdown thrust_idle density_ratio wing_loading_land cl_max vehicle_mass landing_braking_friction_coefficient : ℝ) : ℝ :=
  ((-(tas_touchdown ^ 2)) / ((((ground_roll_distance touchdown_cd touchdown_cl
    landing_stall_velocity tas_touchdown thrust_idle density_ratio wing_loading_land cl_max
    vehicle_mass landing_braking_friction_coefficient) ^ 2) * 2) * gravity)) *
    (dgrd_dwingloadingland touchdown_cd touchdown_cl landing_stall_velocity tas_touchdown
    thrust_idle density_ratio cl_max vehicle_mass landing_braking_friction_coefficient)

/-- Partial of `average_acceleration` with respect to `density_ratio` as set by `LandingGroundRollComponent`, aviary/mission/two_dof/ode/landing_eom.py:821 -/
noncomputable def J_average_acceleration__density_ratio (gravity touchdown_cd touchdown_cl landing_stall_velocity tas_touchdown thrust_idle density_ratio wing_loading_land cl_max vehicle_mass landing_braking_friction_coefficient : ℝ) : ℝ :=
  ((-(tas_touchdown ^ 2)) / ((((ground_roll_distance touchdown_cd touchdown_cl
    landing_stall_velocity tas_touchdown thrust_idle density_ratio wing_loading_land cl_max
    vehicle_mass landing_braking_friction_coefficient) ^ 2) * 2) * gravity)) *
    (dgrd_ddensityratio touchdown_cd touchdown_cl landing_stall_velocity tas_touchdown
    thrust_idle density_ratio wing_loading_land cl_max vehicle_mass
    landing_braking_friction_coefficient)

/-- Partial of `average_acceleration` with respect to `touchdown_cd` as set by `LandingGroundRollComponent`, aviary/mission/two_dof/ode/landing_eom.py:824 -/
noncomputable def J_average_acceleration__touchdown_cd (gravity touchdown_cd touchdown_cl landing_stall_velocity tas_touchdown thrust_idle density_ratio wing_loading_land cl_max vehicle_mass landing_braking_friction_coefficient : ℝ) : ℝ :=
  ((-(tas_touchdown ^ 2)) / ((((ground_roll_distance touchdown_cd touchdown_cl
    landing_stall_velocity tas_touchdown thrust_idle density_ratio wing_loading_land cl_max
    vehicle_mass landing_braking_friction_coefficient) ^ 2) * 2) * gravity)) *
    (dgrd_dtouchdowncd touchdown_cd touchdown_cl landing_stall_velocity tas_touchdown
    thrust_idle density_ratio wing_loading_land cl_max vehicle_mass
    landing_braking_friction_coefficient)

/-- Partial of `average_acceleration` with respect to `touchdown_cl` as set by `LandingGroundRollComponent`, aviary/mission/two_dof/ode/landing_eom.py:827 -/
noncomputable def J_average_acceleration__touchdown_cl (gravity touchdown_cd touchdown_cl landing_stall_velocity tas_touchdown thrust_idle density_ratio wing_loading_land cl_max vehicle_mass landing_braking_friction_coefficient : ℝ) : ℝ :=
  ((-(tas_touchdown ^ 2)) / ((((ground_roll_distance touchdown_cd touchdown_cl
    landing_stall_velocity tas_touchdown thrust_idle density_ratio wing_loading_land cl_max
    vehicle_mass landing_braking_friction_coefficient) ^ 2) * 2) * gravity)) *
    (dgrd_dtouchdowncl touchdown_cd touchdown_cl landing_stall_velocity tas_touchdown
    thrust_idle density_ratio wing_loading_land cl_max vehicle_mass
    landing_braking_friction_coefficient)

/-- Partial of `average_acceleration` with respect to `landing_braking_friction_coefficient` as set by `LandingGroundRollComponent`, aviary/mission/two_dof/ode/landing_eom.py:830 -/
noncomputable def J_average_acceleration__landing_braking_friction_coefficient (gravity touchdown_cd touchdown_cl landing_stall_velocity tas_touchdown thrust_idle density_ratio wing_loading_land cl_max vehicle_mass landing_braking_friction_coefficient : ℝ) : ℝ :=
  ((-(tas_touchdown ^ 2)) / ((((ground_roll_distance touchdown_cd touchdown_cl
    landing_stall_velocity tas_touchdown thrust_idle density_ratio wing_loading_land cl_max
    vehicle_mass landing_braking_friction_coefficient) ^ 2) * 2) * gravity)) * (dgrd_dmub
    touchdown_cd touchdown_cl landing_stall_velocity tas_touchdown thrust_idle density_ratio
    wing_loading_land cl_max vehicle_mass landing_braking_friction_coefficient)

/-- Partial of `average_acceleration` with respect to `thrust_idle` as set by `LandingGroundRollComponent`, aviary/mission/two_dof/ode/landing_eom.py:833 -/
noncomputable def J_average_acceleration__thrust_idle (gravity touchdown_cd touchdown_cl landing_stall_velocity tas_touchdown thrust_idle density_ratio wing_loading_land cl_max vehicle_mass landing_braking_friction_coefficient : ℝ) : ℝ :=
  ((-(tas_touchdown ^ 2)) / ((((ground_roll_distance touchdown_cd touchdown_cl
    landing_stall_velocity tas_touchdown thrust_idle density_ratio wing_loading_land cl_max
    vehicle_mass landing_braking_friction_coefficient) ^ 2) * 2) * gravity)) * (dgrd_dthrustidle
    touchdown_cd touchdown_cl landing_stall_velocity tas_touchdown thrust_idle density_ratio
    wing_loading_land cl_max vehicle_mass landing_braking_friction_coefficient)

/-- Partial of `average_acceleration` with respect to `vehicle_mass` as set by `LandingGroundRollComponent`, aviary/mission/two_dof/ode/landing_eom.py:836 -/
noncomputable def J_average_acceleration__vehicle_mass (gravity touchdown_cd touchdown_cl landing_stall_velocity tas_touchdown thrust_idle density_ratio wing_loading_land cl_max vehicle_mass landing_braking_friction_coefficient : ℝ) : ℝ :=
  ((-(tas_touchdown ^ 2)) / ((((ground_roll_distance touchdown_cd touchdown_cl
    landing_stall_velocity tas_touchdown thrust_idle density_ratio wing_loading_land cl_max
    vehicle_mass landing_braking_friction_coefficient) ^ 2) * 2) * gravity)) * (dgrd_dweight
    touchdown_cd touchdown_cl landing_stall_velocity tas_touchdown thrust_idle density_ratio
    wing_loading_land cl_max vehicle_mass landing_braking_friction_coefficient)

/-- Partial of `average_acceleration` with respect to `cl_max` as set by `LandingGroundRollComponent`, aviary/mission/two_dof/ode/landing_eom.py:842 -/
noncomputable def J_average_acceleration__cl_max (gravity touchdown_cd touchdown_cl landing_stall_velocity tas_touchdown thrust_idle density_ratio wing_loading_land cl_max vehicle_mass landing_braking_friction_coefficient : ℝ) : ℝ :=
  ((-(tas_touchdown ^ 2)) / ((((ground_roll_distance touchdown_cd touchdown_cl
    landing_stall_velocity tas_touchdown thrust_idle density_ratio wing_loading_land cl_max
    vehicle_mass landing_braking_friction_coefficient) ^ 2) * 2) * gravity)) * (dgrd_dclmax
    touchdown_cd touchdown_cl landing_stall_velocity tas_touchdown thrust_idle density_ratio
    wing_loading_land cl_max vehicle_mass landing_braking_friction_coefficient)

/-- Partial of `average_acceleration` with respect to `landing_stall_velocity` as set by `LandingGroundRollComponent`, aviary/mission/two_dof/ode/landing_eom.py:845 -/
noncomputable def J_average_acceleration__landing_stall_velocity (gravity touchdown_cd touchdown_cl landing_stall_velocity tas_touchdown thrust_idle density_ratio wing_loading_land cl_max vehicle_mass landing_braking_friction_coefficient : ℝ) : ℝ :=
  ((-(tas_touchdown ^ 2)) / ((((ground_roll_distance touchdown_cd touchdown_cl
    landing_stall_velocity tas_touchdown thrust_idle density_ratio wing_loading_land cl_max
    vehicle_mass landing_braking_friction_coefficient) ^ 2) * 2) * gravity)) * (dgrd_dtasstall
    touchdown_cd touchdown_cl landing_stall_velocity tas_touchdown thrust_idle density_ratio
    wing_loading_land cl_max vehicle_mass landing_braking_friction_coefficient)

/-- Partial of `average_acceleration` with respect to `tas_touchdown` as set by `LandingGroundRollComponent`, aviary/mission/two_dof/ode/landing_eom.py:848 -/
noncomputable def J_average_acceleration__tas_touchdown (gravity touchdown_cd touchdown_cl landing_stall_velocity tas_touchdown thrust_idle density_ratio wing_loading_land cl_max vehicle_mass landing_braking_friction_coefficient : ℝ) : ℝ :=
  ((((((ground_roll_distance touchdown_cd touchdown_cl landing_stall_velocity tas_touchdown
    thrust_idle density_ratio wing_loading_land cl_max vehicle_mass
    landing_braking_friction_coefficient) * 2) * gravity) * 2) * tas_touchdown) -
    ((((tas_touchdown ^ 2) * 2) * gravity) * (dgrd_dtastouchdown touchdown_cd touchdown_cl
    landing_stall_velocity tas_touchdown thrust_idle density_ratio wing_loading_land cl_max
    vehicle_mass landing_braking_friction_coefficient))) / ((((ground_roll_distance touchdown_cd
    touchdown_cl landing_stall_velocity tas_touchdown thrust_idle density_ratio
    wing_loading_land cl_max vehicle_mass landing_braking_friction_coefficient) * 2) * gravity)
    ^ 2)

theorem d_ground_roll_distance__touchdown_cd (touchdown_cd touchdown_cl landing_stall_velocity
    tas_touchdown thrust_idle density_ratio wing_loading_land cl_max vehicle_mass
    landing_braking_friction_coefficient : ℝ) (h0 : 0 < vehicle_mass) (h1 : 0 < tas_touchdown) (h2
    : 0 < cl_max) (h3 : 0 < landing_stall_velocity) (h4 : (landing_braking_friction_coefficient -
    (thrust_idle / vehicle_mass)) + ((touchdown_cd - (landing_braking_friction_coefficient *
    touchdown_cl)) / (cl_max * ((landing_stall_velocity / tas_touchdown) ^ 2))) ≠ 0) (h5 : 0 <
    landing_braking_friction_coefficient - (thrust_idle / vehicle_mass)) (h6 : 0 <
    (landing_braking_friction_coefficient - (thrust_idle / vehicle_mass)) + ((touchdown_cd -
    (landing_braking_friction_coefficient * touchdown_cl)) / (cl_max * ((landing_stall_velocity /
    tas_touchdown) ^ 2)))) (h7 : 0 < density_ratio) (h8 : touchdown_cd -
    (landing_braking_friction_coefficient * touchdown_cl) ≠ 0) (h9 :
    landing_braking_friction_coefficient - (thrust_idle / vehicle_mass) ≠ 0) :
    HasDerivAt (fun t => out_ground_roll_distance t touchdown_cl landing_stall_velocity tas_touchdown thrust_idle density_ratio wing_loading_land cl_max vehicle_mass landing_braking_friction_coefficient) (J_ground_roll_distance__touchdown_cd touchdown_cd touchdown_cl landing_stall_velocity tas_touchdown thrust_idle density_ratio wing_loading_land cl_max vehicle_mass landing_braking_friction_coefficient) touchdown_cd := by
  simp only [out_ground_roll_distance, J_ground_roll_distance__touchdown_cd, dgrd_dtouchdowncd, daln_dtouchdowncd, darat_dtouchdowncd, ground_roll_distance, aln, arat, dlrl, frat, thrust_to_landing_weight_ratio]
  (apply hasDerivAt_of_eq; on_goal 1 => (repeat' comp_step))
  all_goals try comp_side
  all_goals try simp only [mul_zero, zero_mul, add_zero, zero_add, sub_zero, zero_sub, mul_one, one_mul]
  all_goals try push_cast
  all_goals comp_eq

theorem d_ground_roll_distance__touchdown_cl (touchdown_cd touchdown_cl landing_stall_velocity
    tas_touchdown thrust_idle density_ratio wing_loading_land cl_max vehicle_mass
    landing_braking_friction_coefficient : ℝ) (h0 : 0 < vehicle_mass) (h1 : 0 < tas_touchdown) (h2
    : 0 < cl_max) (h3 : 0 < landing_stall_velocity) (h4 : (landing_braking_friction_coefficient -
    (thrust_idle / vehicle_mass)) + ((touchdown_cd - (landing_braking_friction_coefficient *
    touchdown_cl)) / (cl_max * ((landing_stall_velocity / tas_touchdown) ^ 2))) ≠ 0) (h5 : 0 <
    landing_braking_friction_coefficient - (thrust_idle / vehicle_mass)) (h6 : 0 <
    (landing_braking_friction_coefficient - (thrust_idle / vehicle_mass)) + ((touchdown_cd -
    (landing_braking_friction_coefficient * touchdown_cl)) / (cl_max * ((landing_stall_velocity /
    tas_touchdown) ^ 2)))) (h7 : 0 < density_ratio) (h8 : touchdown_cd -
    (landing_braking_friction_coefficient * touchdown_cl) ≠ 0) (h9 :
    landing_braking_friction_coefficient - (thrust_idle / vehicle_mass) ≠ 0) :
    HasDerivAt (fun t => out_ground_roll_distance touchdown_cd t landing_stall_velocity tas_touchdown thrust_idle density_ratio wing_loading_land cl_max vehicle_mass landing_braking_friction_coefficient) (J_ground_roll_distance__touchdown_cl touchdown_cd touchdown_cl landing_stall_velocity tas_touchdown thrust_idle density_ratio wing_loading_land cl_max vehicle_mass landing_braking_friction_coefficient) touchdown_cl := by
  simp only [out_ground_roll_distance, J_ground_roll_distance__touchdown_cl, dgrd_dtouchdowncl, daln_dtouchdowncl, darat_dtouchdowncl, ddlrl_dtouchdowncl, ground_roll_distance, aln, arat, dlrl, frat, thrust_to_landing_weight_ratio]
  (apply hasDerivAt_of_eq; on_goal 1 => (repeat' comp_step))
  all_goals try comp_side
  all_goals try simp only [mul_zero, zero_mul, add_zero, zero_add, sub_zero, zero_sub, mul_one, one_mul]
  all_goals try push_cast
  all_goals comp_eq

theorem d_ground_roll_distance__landing_stall_velocity (touchdown_cd touchdown_cl
    landing_stall_velocity tas_touchdown thrust_idle density_ratio wing_loading_land cl_max
    vehicle_mass landing_braking_friction_coefficient : ℝ) (h0 : 0 < vehicle_mass) (h1 : 0 <
    tas_touchdown) (h2 : 0 < cl_max) (h3 : 0 < landing_stall_velocity) (h4 :
    (landing_braking_friction_coefficient - (thrust_idle / vehicle_mass)) + ((touchdown_cd -
    (landing_braking_friction_coefficient * touchdown_cl)) / (cl_max * ((landing_stall_velocity /
    tas_touchdown) ^ 2))) ≠ 0) (h5 : 0 < landing_braking_friction_coefficient - (thrust_idle /
    vehicle_mass)) (h6 : 0 < (landing_braking_friction_coefficient - (thrust_idle / vehicle_mass))
    + ((touchdown_cd - (landing_braking_friction_coefficient * touchdown_cl)) / (cl_max *
    ((landing_stall_velocity / tas_touchdown) ^ 2)))) (h7 : 0 < density_ratio) (h8 : touchdown_cd
    - (landing_braking_friction_coefficient * touchdown_cl) ≠ 0) (h9 :
    landing_braking_friction_coefficient - (thrust_idle / vehicle_mass) ≠ 0) :
    HasDerivAt (fun t => out_ground_roll_distance touchdown_cd touchdown_cl t tas_touchdown thrust_idle density_ratio wing_loading_land cl_max vehicle_mass landing_braking_friction_coefficient) (J_ground_roll_distance__landing_stall_velocity touchdown_cd touchdown_cl landing_stall_velocity tas_touchdown thrust_idle density_ratio wing_loading_land cl_max vehicle_mass landing_braking_friction_coefficient) landing_stall_velocity := by
  simp only [out_ground_roll_distance, J_ground_roll_distance__landing_stall_velocity, dgrd_dtasstall, daln_dtasstall, darat_dtasstall, ground_roll_distance, aln, arat, dlrl, frat, thrust_to_landing_weight_ratio]
  (apply hasDerivAt_of_eq; on_goal 1 => (repeat' comp_step))
  all_goals try comp_side
  all_goals try simp only [mul_zero, zero_mul, add_zero, zero_add, sub_zero, zero_sub, mul_one, one_mul]
  all_goals try push_cast
  all_goals comp_eq

theorem d_ground_roll_distance__tas_touchdown (touchdown_cd touchdown_cl landing_stall_velocity
    tas_touchdown thrust_idle density_ratio wing_loading_land cl_max vehicle_mass
    landing_braking_friction_coefficient : ℝ) (h0 : 0 < vehicle_mass) (h1 : 0 < tas_touchdown) (h2
    : 0 < cl_max) (h3 : 0 < landing_stall_velocity) (h4 : (landing_braking_friction_coefficient -
    (thrust_idle / vehicle_mass)) + ((touchdown_cd - (landing_braking_friction_coefficient *
    touchdown_cl)) / (cl_max * ((landing_stall_velocity / tas_touchdown) ^ 2))) ≠ 0) (h5 : 0 <
    landing_braking_friction_coefficient - (thrust_idle / vehicle_mass)) (h6 : 0 <
    (landing_braking_friction_coefficient - (thrust_idle / vehicle_mass)) + ((touchdown_cd -
    (landing_braking_friction_coefficient * touchdown_cl)) / (cl_max * ((landing_stall_velocity /
    tas_touchdown) ^ 2)))) (h7 : 0 < density_ratio) (h8 : touchdown_cd -
    (landing_braking_friction_coefficient * touchdown_cl) ≠ 0) (h9 :
    landing_braking_friction_coefficient - (thrust_idle / vehicle_mass) ≠ 0) :
    HasDerivAt (fun t => out_ground_roll_distance touchdown_cd touchdown_cl landing_stall_velocity t thrust_idle density_ratio wing_loading_land cl_max vehicle_mass landing_braking_friction_coefficient) (J_ground_roll_distance__tas_touchdown touchdown_cd touchdown_cl landing_stall_velocity tas_touchdown thrust_idle density_ratio wing_loading_land cl_max vehicle_mass landing_braking_friction_coefficient) tas_touchdown := by
  simp only [out_ground_roll_distance, J_ground_roll_distance__tas_touchdown, dgrd_dtastouchdown, daln_dtastouchdown, darat_dtastouchdown, ground_roll_distance, aln, arat, dlrl, frat, thrust_to_landing_weight_ratio]
  (apply hasDerivAt_of_eq; on_goal 1 => (repeat' comp_step))
  all_goals try comp_side
  all_goals try simp only [mul_zero, zero_mul, add_zero, zero_add, sub_zero, zero_sub, mul_one, one_mul]
  all_goals try push_cast
  all_goals comp_eq

theorem d_ground_roll_distance__thrust_idle (touchdown_cd touchdown_cl landing_stall_velocity
    tas_touchdown thrust_idle density_ratio wing_loading_land cl_max vehicle_mass
    landing_braking_friction_coefficient : ℝ) (h0 : 0 < vehicle_mass) (h1 : 0 < tas_touchdown) (h2
    : 0 < cl_max) (h3 : 0 < landing_stall_velocity) (h4 : (landing_braking_friction_coefficient -
    (thrust_idle / vehicle_mass)) + ((touchdown_cd - (landing_braking_friction_coefficient *
    touchdown_cl)) / (cl_max * ((landing_stall_velocity / tas_touchdown) ^ 2))) ≠ 0) (h5 : 0 <
    landing_braking_friction_coefficient - (thrust_idle / vehicle_mass)) (h6 : 0 <
    (landing_braking_friction_coefficient - (thrust_idle / vehicle_mass)) + ((touchdown_cd -
    (landing_braking_friction_coefficient * touchdown_cl)) / (cl_max * ((landing_stall_velocity /
    tas_touchdown) ^ 2)))) (h7 : 0 < density_ratio) (h8 : touchdown_cd -
    (landing_braking_friction_coefficient * touchdown_cl) ≠ 0) (h9 :
    landing_braking_friction_coefficient - (thrust_idle / vehicle_mass) ≠ 0) :
    HasDerivAt (fun t => out_ground_roll_distance touchdown_cd touchdown_cl landing_stall_velocity tas_touchdown t density_ratio wing_loading_land cl_max vehicle_mass landing_braking_friction_coefficient) (J_ground_roll_distance__thrust_idle touchdown_cd touchdown_cl landing_stall_velocity tas_touchdown thrust_idle density_ratio wing_loading_land cl_max vehicle_mass landing_braking_friction_coefficient) thrust_idle := by
  simp only [out_ground_roll_distance, J_ground_roll_distance__thrust_idle, dgrd_dthrustidle, daln_dthrustidle, dfrat_dthrustidle, ground_roll_distance, aln, arat, dlrl, frat, thrust_to_landing_weight_ratio]
  (apply hasDerivAt_of_eq; on_goal 1 => (repeat' comp_step))
  all_goals try comp_side
  all_goals try simp only [mul_zero, zero_mul, add_zero, zero_add, sub_zero, zero_sub, mul_one, one_mul]
  all_goals try push_cast
  all_goals comp_eq

theorem d_ground_roll_distance__density_ratio (touchdown_cd touchdown_cl landing_stall_velocity
    tas_touchdown thrust_idle density_ratio wing_loading_land cl_max vehicle_mass
    landing_braking_friction_coefficient : ℝ) (h0 : 0 < vehicle_mass) (h1 : 0 < tas_touchdown) (h2
    : 0 < cl_max) (h3 : 0 < landing_stall_velocity) (h4 : (landing_braking_friction_coefficient -
    (thrust_idle / vehicle_mass)) + ((touchdown_cd - (landing_braking_friction_coefficient *
    touchdown_cl)) / (cl_max * ((landing_stall_velocity / tas_touchdown) ^ 2))) ≠ 0) (h5 : 0 <
    landing_braking_friction_coefficient - (thrust_idle / vehicle_mass)) (h6 : 0 <
    (landing_braking_friction_coefficient - (thrust_idle / vehicle_mass)) + ((touchdown_cd -
    (landing_braking_friction_coefficient * touchdown_cl)) / (cl_max * ((landing_stall_velocity /
    tas_touchdown) ^ 2)))) (h7 : 0 < density_ratio) (h8 : touchdown_cd -
    (landing_braking_friction_coefficient * touchdown_cl) ≠ 0) :
    HasDerivAt (fun t => out_ground_roll_distance touchdown_cd touchdown_cl landing_stall_velocity tas_touchdown thrust_idle t wing_loading_land cl_max vehicle_mass landing_braking_friction_coefficient) (J_ground_roll_distance__density_ratio touchdown_cd touchdown_cl landing_stall_velocity tas_touchdown thrust_idle density_ratio wing_loading_land cl_max vehicle_mass landing_braking_friction_coefficient) density_ratio := by
  simp only [out_ground_roll_distance, J_ground_roll_distance__density_ratio, dgrd_ddensityratio, ground_roll_distance, aln, arat, dlrl, frat, thrust_to_landing_weight_ratio]
  (apply hasDerivAt_of_eq; on_goal 1 => (repeat' comp_step))
  all_goals try comp_side
  all_goals try simp only [mul_zero, zero_mul, add_zero, zero_add, sub_zero, zero_sub, mul_one, one_mul]
  all_goals try push_cast
  all_goals comp_eq

theorem d_ground_roll_distance__wing_loading_land (touchdown_cd touchdown_cl
    landing_stall_velocity tas_touchdown thrust_idle density_ratio wing_loading_land cl_max
    vehicle_mass landing_braking_friction_coefficient : ℝ) (h0 : 0 < vehicle_mass) (h1 : 0 <
    tas_touchdown) (h2 : 0 < cl_max) (h3 : 0 < landing_stall_velocity) (h4 :
    (landing_braking_friction_coefficient - (thrust_idle / vehicle_mass)) + ((touchdown_cd -
    (landing_braking_friction_coefficient * touchdown_cl)) / (cl_max * ((landing_stall_velocity /
    tas_touchdown) ^ 2))) ≠ 0) (h5 : 0 < landing_braking_friction_coefficient - (thrust_idle /
    vehicle_mass)) (h6 : 0 < (landing_braking_friction_coefficient - (thrust_idle / vehicle_mass))
    + ((touchdown_cd - (landing_braking_friction_coefficient * touchdown_cl)) / (cl_max *
    ((landing_stall_velocity / tas_touchdown) ^ 2)))) (h7 : 0 < density_ratio) (h8 : touchdown_cd
    - (landing_braking_friction_coefficient * touchdown_cl) ≠ 0) :
    HasDerivAt (fun t => out_ground_roll_distance touchdown_cd touchdown_cl landing_stall_velocity tas_touchdown thrust_idle density_ratio t cl_max vehicle_mass landing_braking_friction_coefficient) (J_ground_roll_distance__wing_loading_land touchdown_cd touchdown_cl landing_stall_velocity tas_touchdown thrust_idle density_ratio cl_max vehicle_mass landing_braking_friction_coefficient) wing_loading_land := by
  simp only [out_ground_roll_distance, J_ground_roll_distance__wing_loading_land, dgrd_dwingloadingland, ground_roll_distance, aln, arat, dlrl, frat, thrust_to_landing_weight_ratio]
  (apply hasDerivAt_of_eq; on_goal 1 => (repeat' comp_step))
  all_goals try comp_side
  all_goals try simp only [mul_zero, zero_mul, add_zero, zero_add, sub_zero, zero_sub, mul_one, one_mul]
  all_goals try push_cast
  all_goals comp_eq

theorem d_ground_roll_distance__cl_max (touchdown_cd touchdown_cl landing_stall_velocity
    tas_touchdown thrust_idle density_ratio wing_loading_land cl_max vehicle_mass
    landing_braking_friction_coefficient : ℝ) (h0 : 0 < vehicle_mass) (h1 : 0 < tas_touchdown) (h2
    : 0 < cl_max) (h3 : 0 < landing_stall_velocity) (h4 : (landing_braking_friction_coefficient -
    (thrust_idle / vehicle_mass)) + ((touchdown_cd - (landing_braking_friction_coefficient *
    touchdown_cl)) / (cl_max * ((landing_stall_velocity / tas_touchdown) ^ 2))) ≠ 0) (h5 : 0 <
    landing_braking_friction_coefficient - (thrust_idle / vehicle_mass)) (h6 : 0 <
    (landing_braking_friction_coefficient - (thrust_idle / vehicle_mass)) + ((touchdown_cd -
    (landing_braking_friction_coefficient * touchdown_cl)) / (cl_max * ((landing_stall_velocity /
    tas_touchdown) ^ 2)))) (h7 : 0 < density_ratio) (h8 : touchdown_cd -
    (landing_braking_friction_coefficient * touchdown_cl) ≠ 0) (h9 :
    landing_braking_friction_coefficient - (thrust_idle / vehicle_mass) ≠ 0) :
    HasDerivAt (fun t => out_ground_roll_distance touchdown_cd touchdown_cl landing_stall_velocity tas_touchdown thrust_idle density_ratio wing_loading_land t vehicle_mass landing_braking_friction_coefficient) (J_ground_roll_distance__cl_max touchdown_cd touchdown_cl landing_stall_velocity tas_touchdown thrust_idle density_ratio wing_loading_land cl_max vehicle_mass landing_braking_friction_coefficient) cl_max := by
  simp only [out_ground_roll_distance, J_ground_roll_distance__cl_max, dgrd_dclmax, daln_dclmax, darat_dclmax, ground_roll_distance, aln, arat, dlrl, frat, thrust_to_landing_weight_ratio]
  (apply hasDerivAt_of_eq; on_goal 1 => (repeat' comp_step))
  all_goals try comp_side
  all_goals try simp only [mul_zero, zero_mul, add_zero, zero_add, sub_zero, zero_sub, mul_one, one_mul]
  all_goals try push_cast
  all_goals comp_eq

theorem d_ground_roll_distance__vehicle_mass (touchdown_cd touchdown_cl landing_stall_velocity
    tas_touchdown thrust_idle density_ratio wing_loading_land cl_max vehicle_mass
    landing_braking_friction_coefficient : ℝ) (h0 : 0 < vehicle_mass) (h1 : 0 < tas_touchdown) (h2
    : 0 < cl_max) (h3 : 0 < landing_stall_velocity) (h4 : (landing_braking_friction_coefficient -
    (thrust_idle / vehicle_mass)) + ((touchdown_cd - (landing_braking_friction_coefficient *
    touchdown_cl)) / (cl_max * ((landing_stall_velocity / tas_touchdown) ^ 2))) ≠ 0) (h5 : 0 <
    landing_braking_friction_coefficient - (thrust_idle / vehicle_mass)) (h6 : 0 <
    (landing_braking_friction_coefficient - (thrust_idle / vehicle_mass)) + ((touchdown_cd -
    (landing_braking_friction_coefficient * touchdown_cl)) / (cl_max * ((landing_stall_velocity /
    tas_touchdown) ^ 2)))) (h7 : 0 < density_ratio) (h8 : touchdown_cd -
    (landing_braking_friction_coefficient * touchdown_cl) ≠ 0) (h9 :
    landing_braking_friction_coefficient - (thrust_idle / vehicle_mass) ≠ 0) :
    HasDerivAt (fun t => out_ground_roll_distance touchdown_cd touchdown_cl landing_stall_velocity tas_touchdown thrust_idle density_ratio wing_loading_land cl_max t landing_braking_friction_coefficient) (J_ground_roll_distance__vehicle_mass touchdown_cd touchdown_cl landing_stall_velocity tas_touchdown thrust_idle density_ratio wing_loading_land cl_max vehicle_mass landing_braking_friction_coefficient) vehicle_mass := by
  simp only [out_ground_roll_distance, J_ground_roll_distance__vehicle_mass, dgrd_dweight, daln_dweight, dfrat_dweight, ground_roll_distance, aln, arat, dlrl, frat, thrust_to_landing_weight_ratio]
  (apply hasDerivAt_of_eq; on_goal 1 => (repeat' comp_step))
  all_goals try comp_side
  all_goals try simp only [mul_zero, zero_mul, add_zero, zero_add, sub_zero, zero_sub, mul_one, one_mul]
  all_goals try push_cast
  all_goals comp_eq

theorem d_ground_roll_distance__landing_braking_friction_coefficient (touchdown_cd touchdown_cl
    landing_stall_velocity tas_touchdown thrust_idle density_ratio wing_loading_land cl_max
    vehicle_mass landing_braking_friction_coefficient : ℝ) (h0 : 0 < vehicle_mass) (h1 : 0 <
    tas_touchdown) (h2 : 0 < cl_max) (h3 : 0 < landing_stall_velocity) (h4 :
    (landing_braking_friction_coefficient - (thrust_idle / vehicle_mass)) + ((touchdown_cd -
    (landing_braking_friction_coefficient * touchdown_cl)) / (cl_max * ((landing_stall_velocity /
    tas_touchdown) ^ 2))) ≠ 0) (h5 : 0 < landing_braking_friction_coefficient - (thrust_idle /
    vehicle_mass)) (h6 : 0 < (landing_braking_friction_coefficient - (thrust_idle / vehicle_mass))
    + ((touchdown_cd - (landing_braking_friction_coefficient * touchdown_cl)) / (cl_max *
    ((landing_stall_velocity / tas_touchdown) ^ 2)))) (h7 : 0 < density_ratio) (h8 : touchdown_cd
    - (landing_braking_friction_coefficient * touchdown_cl) ≠ 0) (h9 :
    landing_braking_friction_coefficient - (thrust_idle / vehicle_mass) ≠ 0) :
    HasDerivAt (fun t => out_ground_roll_distance touchdown_cd touchdown_cl landing_stall_velocity tas_touchdown thrust_idle density_ratio wing_loading_land cl_max vehicle_mass t) (J_ground_roll_distance__landing_braking_friction_coefficient touchdown_cd touchdown_cl landing_stall_velocity tas_touchdown thrust_idle density_ratio wing_loading_land cl_max vehicle_mass landing_braking_friction_coefficient) landing_braking_friction_coefficient := by
  simp only [out_ground_roll_distance, J_ground_roll_distance__landing_braking_friction_coefficient, dgrd_dmub, daln_dmub, darat_dmub, ddlrl_dmub, ground_roll_distance, aln, arat, dlrl, frat, thrust_to_landing_weight_ratio]
  (apply hasDerivAt_of_eq; on_goal 1 => (repeat' comp_step))
  all_goals try comp_side
  all_goals try simp only [mul_zero, zero_mul, add_zero, zero_add, sub_zero, zero_sub, mul_one, one_mul]
  all_goals try push_cast
  all_goals comp_eq

theorem d_landing_ground_distance__touchdown_cd (touchdown_cd touchdown_cl landing_stall_velocity
    tas_touchdown thrust_idle density_ratio wing_loading_land glide_distance tr_distance
    delay_distance cl_max vehicle_mass landing_braking_friction_coefficient : ℝ) (h0 : 0 <
    vehicle_mass) (h1 : 0 < tas_touchdown) (h2 : 0 < cl_max) (h3 : 0 < landing_stall_velocity) (h4
    : (landing_braking_friction_coefficient - (thrust_idle / vehicle_mass)) + ((touchdown_cd -
    (landing_braking_friction_coefficient * touchdown_cl)) / (cl_max * ((landing_stall_velocity /
    tas_touchdown) ^ 2))) ≠ 0) (h5 : 0 < landing_braking_friction_coefficient - (thrust_idle /
    vehicle_mass)) (h6 : 0 < (landing_braking_friction_coefficient - (thrust_idle / vehicle_mass))
    + ((touchdown_cd - (landing_braking_friction_coefficient * touchdown_cl)) / (cl_max *
    ((landing_stall_velocity / tas_touchdown) ^ 2)))) (h7 : 0 < density_ratio) (h8 : touchdown_cd
    - (landing_braking_friction_coefficient * touchdown_cl) ≠ 0) (h9 :
    landing_braking_friction_coefficient - (thrust_idle / vehicle_mass) ≠ 0) :
    HasDerivAt (fun t => out_landing_ground_distance t touchdown_cl landing_stall_velocity tas_touchdown thrust_idle density_ratio wing_loading_land glide_distance tr_distance delay_distance cl_max vehicle_mass landing_braking_friction_coefficient) (J_landing_ground_distance__touchdown_cd touchdown_cd touchdown_cl landing_stall_velocity tas_touchdown thrust_idle density_ratio wing_loading_land cl_max vehicle_mass landing_braking_friction_coefficient) touchdown_cd := by
  simp only [out_landing_ground_distance, J_landing_ground_distance__touchdown_cd, dgrd_dtouchdowncd, daln_dtouchdowncd, darat_dtouchdowncd, total_distance, ground_roll_distance, aln, arat, dlrl, frat, thrust_to_landing_weight_ratio]
  (apply hasDerivAt_of_eq; on_goal 1 => (repeat' comp_step))
  all_goals try comp_side
  all_goals try simp only [mul_zero, zero_mul, add_zero, zero_add, sub_zero, zero_sub, mul_one, one_mul]
  all_goals try push_cast
  all_goals comp_eq

theorem d_landing_ground_distance__touchdown_cl (touchdown_cd touchdown_cl landing_stall_velocity
    tas_touchdown thrust_idle density_ratio wing_loading_land glide_distance tr_distance
    delay_distance cl_max vehicle_mass landing_braking_friction_coefficient : ℝ) (h0 : 0 <
    vehicle_mass) (h1 : 0 < tas_touchdown) (h2 : 0 < cl_max) (h3 : 0 < landing_stall_velocity) (h4
    : (landing_braking_friction_coefficient - (thrust_idle / vehicle_mass)) + ((touchdown_cd -
    (landing_braking_friction_coefficient * touchdown_cl)) / (cl_max * ((landing_stall_velocity /
    tas_touchdown) ^ 2))) ≠ 0) (h5 : 0 < landing_braking_friction_coefficient - (thrust_idle /
    vehicle_mass)) (h6 : 0 < (landing_braking_friction_coefficient - (thrust_idle / vehicle_mass))
    + ((touchdown_cd - (landing_braking_friction_coefficient * touchdown_cl)) / (cl_max *
    ((landing_stall_velocity / tas_touchdown) ^ 2)))) (h7 : 0 < density_ratio) (h8 : touchdown_cd
    - (landing_braking_friction_coefficient * touchdown_cl) ≠ 0) (h9 :
    landing_braking_friction_coefficient - (thrust_idle / vehicle_mass) ≠ 0) :
    HasDerivAt (fun t => out_landing_ground_distance touchdown_cd t landing_stall_velocity tas_touchdown thrust_idle density_ratio wing_loading_land glide_distance tr_distance delay_distance cl_max vehicle_mass landing_braking_friction_coefficient) (J_landing_ground_distance__touchdown_cl touchdown_cd touchdown_cl landing_stall_velocity tas_touchdown thrust_idle density_ratio wing_loading_land cl_max vehicle_mass landing_braking_friction_coefficient) touchdown_cl := by
  simp only [out_landing_ground_distance, J_landing_ground_distance__touchdown_cl, dgrd_dtouchdowncl, daln_dtouchdowncl, darat_dtouchdowncl, ddlrl_dtouchdowncl, total_distance, ground_roll_distance, aln, arat, dlrl, frat, thrust_to_landing_weight_ratio]
  (apply hasDerivAt_of_eq; on_goal 1 => (repeat' comp_step))
  all_goals try comp_side
  all_goals try simp only [mul_zero, zero_mul, add_zero, zero_add, sub_zero, zero_sub, mul_one, one_mul]
  all_goals try push_cast
  all_goals comp_eq

theorem d_landing_ground_distance__landing_stall_velocity (touchdown_cd touchdown_cl
    landing_stall_velocity tas_touchdown thrust_idle density_ratio wing_loading_land
    glide_distance tr_distance delay_distance cl_max vehicle_mass
    landing_braking_friction_coefficient : ℝ) (h0 : 0 < vehicle_mass) (h1 : 0 < tas_touchdown) (h2
    : 0 < cl_max) (h3 : 0 < landing_stall_velocity) (h4 : (landing_braking_friction_coefficient -
    (thrust_idle / vehicle_mass)) + ((touchdown_cd - (landing_braking_friction_coefficient *
    touchdown_cl)) / (cl_max * ((landing_stall_velocity / tas_touchdown) ^ 2))) ≠ 0) (h5 : 0 <
    landing_braking_friction_coefficient - (thrust_idle / vehicle_mass)) (h6 : 0 <
    (landing_braking_friction_coefficient - (thrust_idle / vehicle_mass)) + ((touchdown_cd -
    (landing_braking_friction_coefficient * touchdown_cl)) / (cl_max * ((landing_stall_velocity /
    tas_touchdown) ^ 2)))) (h7 : 0 < density_ratio) (h8 : touchdown_cd -
    (landing_braking_friction_coefficient * touchdown_cl) ≠ 0) (h9 :
    landing_braking_friction_coefficient - (thrust_idle / vehicle_mass) ≠ 0) :
    HasDerivAt (fun t => out_landing_ground_distance touchdown_cd touchdown_cl t tas_touchdown thrust_idle density_ratio wing_loading_land glide_distance tr_distance delay_distance cl_max vehicle_mass landing_braking_friction_coefficient) (J_landing_ground_distance__landing_stall_velocity touchdown_cd touchdown_cl landing_stall_velocity tas_touchdown thrust_idle density_ratio wing_loading_land cl_max vehicle_mass landing_braking_friction_coefficient) landing_stall_velocity := by
  simp only [out_landing_ground_distance, J_landing_ground_distance__landing_stall_velocity, dgrd_dtasstall, daln_dtasstall, darat_dtasstall, total_distance, ground_roll_distance, aln, arat, dlrl, frat, thrust_to_landing_weight_ratio]
  (apply hasDerivAt_of_eq; on_goal 1 => (repeat' comp_step))
  all_goals try comp_side
  all_goals try simp only [mul_zero, zero_mul, add_zero, zero_add, sub_zero, zero_sub, mul_one, one_mul]
  all_goals try push_cast
  all_goals comp_eq

theorem d_landing_ground_distance__tas_touchdown (touchdown_cd touchdown_cl landing_stall_velocity
    tas_touchdown thrust_idle density_ratio wing_loading_land glide_distance tr_distance
    delay_distance cl_max vehicle_mass landing_braking_friction_coefficient : ℝ) (h0 : 0 <
    vehicle_mass) (h1 : 0 < tas_touchdown) (h2 : 0 < cl_max) (h3 : 0 < landing_stall_velocity) (h4
    : (landing_braking_friction_coefficient - (thrust_idle / vehicle_mass)) + ((touchdown_cd -
    (landing_braking_friction_coefficient * touchdown_cl)) / (cl_max * ((landing_stall_velocity /
    tas_touchdown) ^ 2))) ≠ 0) (h5 : 0 < landing_braking_friction_coefficient - (thrust_idle /
    vehicle_mass)) (h6 : 0 < (landing_braking_friction_coefficient - (thrust_idle / vehicle_mass))
    + ((touchdown_cd - (landing_braking_friction_coefficient * touchdown_cl)) / (cl_max *
    ((landing_stall_velocity / tas_touchdown) ^ 2)))) (h7 : 0 < density_ratio) (h8 : touchdown_cd
    - (landing_braking_friction_coefficient * touchdown_cl) ≠ 0) (h9 :
    landing_braking_friction_coefficient - (thrust_idle / vehicle_mass) ≠ 0) :
    HasDerivAt (fun t => out_landing_ground_distance touchdown_cd touchdown_cl landing_stall_velocity t thrust_idle density_ratio wing_loading_land glide_distance tr_distance delay_distance cl_max vehicle_mass landing_braking_friction_coefficient) (J_landing_ground_distance__tas_touchdown touchdown_cd touchdown_cl landing_stall_velocity tas_touchdown thrust_idle density_ratio wing_loading_land cl_max vehicle_mass landing_braking_friction_coefficient) tas_touchdown := by
  simp only [out_landing_ground_distance, J_landing_ground_distance__tas_touchdown, dgrd_dtastouchdown, daln_dtastouchdown, darat_dtastouchdown, total_distance, ground_roll_distance, aln, arat, dlrl, frat, thrust_to_landing_weight_ratio]
  (apply hasDerivAt_of_eq; on_goal 1 => (repeat' comp_step))
  all_goals try comp_side
  all_goals try simp only [mul_zero, zero_mul, add_zero, zero_add, sub_zero, zero_sub, mul_one, one_mul]
  all_goals try push_cast
  all_goals comp_eq

theorem d_landing_ground_distance__thrust_idle (touchdown_cd touchdown_cl landing_stall_velocity
    tas_touchdown thrust_idle density_ratio wing_loading_land glide_distance tr_distance
    delay_distance cl_max vehicle_mass landing_braking_friction_coefficient : ℝ) (h0 : 0 <
    vehicle_mass) (h1 : 0 < tas_touchdown) (h2 : 0 < cl_max) (h3 : 0 < landing_stall_velocity) (h4
    : (landing_braking_friction_coefficient - (thrust_idle / vehicle_mass)) + ((touchdown_cd -
    (landing_braking_friction_coefficient * touchdown_cl)) / (cl_max * ((landing_stall_velocity /
    tas_touchdown) ^ 2))) ≠ 0) (h5 : 0 < landing_braking_friction_coefficient - (thrust_idle /
    vehicle_mass)) (h6 : 0 < (landing_braking_friction_coefficient - (thrust_idle / vehicle_mass))
    + ((touchdown_cd - (landing_braking_friction_coefficient * touchdown_cl)) / (cl_max *
    ((landing_stall_velocity / tas_touchdown) ^ 2)))) (h7 : 0 < density_ratio) (h8 : touchdown_cd
    - (landing_braking_friction_coefficient * touchdown_cl) ≠ 0) (h9 :
    landing_braking_friction_coefficient - (thrust_idle / vehicle_mass) ≠ 0) :
    HasDerivAt (fun t => out_landing_ground_distance touchdown_cd touchdown_cl landing_stall_velocity tas_touchdown t density_ratio wing_loading_land glide_distance tr_distance delay_distance cl_max vehicle_mass landing_braking_friction_coefficient) (J_landing_ground_distance__thrust_idle touchdown_cd touchdown_cl landing_stall_velocity tas_touchdown thrust_idle density_ratio wing_loading_land cl_max vehicle_mass landing_braking_friction_coefficient) thrust_idle := by
  simp only [out_landing_ground_distance, J_landing_ground_distance__thrust_idle, dgrd_dthrustidle, daln_dthrustidle, dfrat_dthrustidle, total_distance, ground_roll_distance, aln, arat, dlrl, frat, thrust_to_landing_weight_ratio]
  (apply hasDerivAt_of_eq; on_goal 1 => (repeat' comp_step))
  all_goals try comp_side
  all_goals try simp only [mul_zero, zero_mul, add_zero, zero_add, sub_zero, zero_sub, mul_one, one_mul]
  all_goals try push_cast
  all_goals comp_eq

theorem d_landing_ground_distance__density_ratio (touchdown_cd touchdown_cl landing_stall_velocity
    tas_touchdown thrust_idle density_ratio wing_loading_land glide_distance tr_distance
    delay_distance cl_max vehicle_mass landing_braking_friction_coefficient : ℝ) (h0 : 0 <
    vehicle_mass) (h1 : 0 < tas_touchdown) (h2 : 0 < cl_max) (h3 : 0 < landing_stall_velocity) (h4
    : (landing_braking_friction_coefficient - (thrust_idle / vehicle_mass)) + ((touchdown_cd -
    (landing_braking_friction_coefficient * touchdown_cl)) / (cl_max * ((landing_stall_velocity /
    tas_touchdown) ^ 2))) ≠ 0) (h5 : 0 < landing_braking_friction_coefficient - (thrust_idle /
    vehicle_mass)) (h6 : 0 < (landing_braking_friction_coefficient - (thrust_idle / vehicle_mass))
    + ((touchdown_cd - (landing_braking_friction_coefficient * touchdown_cl)) / (cl_max *
    ((landing_stall_velocity / tas_touchdown) ^ 2)))) (h7 : 0 < density_ratio) (h8 : touchdown_cd
    - (landing_braking_friction_coefficient * touchdown_cl) ≠ 0) :
    HasDerivAt (fun t => out_landing_ground_distance touchdown_cd touchdown_cl landing_stall_velocity tas_touchdown thrust_idle t wing_loading_land glide_distance tr_distance delay_distance cl_max vehicle_mass landing_braking_friction_coefficient) (J_landing_ground_distance__density_ratio touchdown_cd touchdown_cl landing_stall_velocity tas_touchdown thrust_idle density_ratio wing_loading_land cl_max vehicle_mass landing_braking_friction_coefficient) density_ratio := by
  simp only [out_landing_ground_distance, J_landing_ground_distance__density_ratio, dgrd_ddensityratio, total_distance, ground_roll_distance, aln, arat, dlrl, frat, thrust_to_landing_weight_ratio]
  (apply hasDerivAt_of_eq; on_goal 1 => (repeat' comp_step))
  all_goals try comp_side
  all_goals try simp only [mul_zero, zero_mul, add_zero, zero_add, sub_zero, zero_sub, mul_one, one_mul]
  all_goals try push_cast
  all_goals comp_eq

theorem d_landing_ground_distance__wing_loading_land (touchdown_cd touchdown_cl
    landing_stall_velocity tas_touchdown thrust_idle density_ratio wing_loading_land
    glide_distance tr_distance delay_distance cl_max vehicle_mass
    landing_braking_friction_coefficient : ℝ) (h0 : 0 < vehicle_mass) (h1 : 0 < tas_touchdown) (h2
    : 0 < cl_max) (h3 : 0 < landing_stall_velocity) (h4 : (landing_braking_friction_coefficient -
    (thrust_idle / vehicle_mass)) + ((touchdown_cd - (landing_braking_friction_coefficient *
    touchdown_cl)) / (cl_max * ((landing_stall_velocity / tas_touchdown) ^ 2))) ≠ 0) (h5 : 0 <
    landing_braking_friction_coefficient - (thrust_idle / vehicle_mass)) (h6 : 0 <
    (landing_braking_friction_coefficient - (thrust_idle / vehicle_mass)) + ((touchdown_cd -
    (landing_braking_friction_coefficient * touchdown_cl)) / (cl_max * ((landing_stall_velocity /
    tas_touchdown) ^ 2)))) (h7 : 0 < density_ratio) (h8 : touchdown_cd -
    (landing_braking_friction_coefficient * touchdown_cl) ≠ 0) :
    HasDerivAt (fun t => out_landing_ground_distance touchdown_cd touchdown_cl landing_stall_velocity tas_touchdown thrust_idle density_ratio t glide_distance tr_distance delay_distance cl_max vehicle_mass landing_braking_friction_coefficient) (J_landing_ground_distance__wing_loading_land touchdown_cd touchdown_cl landing_stall_velocity tas_touchdown thrust_idle density_ratio cl_max vehicle_mass landing_braking_friction_coefficient) wing_loading_land := by
  simp only [out_landing_ground_distance, J_landing_ground_distance__wing_loading_land, dgrd_dwingloadingland, total_distance, ground_roll_distance, aln, arat, dlrl, frat, thrust_to_landing_weight_ratio]
  (apply hasDerivAt_of_eq; on_goal 1 => (repeat' comp_step))
  all_goals try comp_side
  all_goals try simp only [mul_zero, zero_mul, add_zero, zero_add, sub_zero, zero_sub, mul_one, one_mul]
  all_goals try push_cast
  all_goals comp_eq

theorem d_landing_ground_distance__glide_distance (touchdown_cd touchdown_cl
    landing_stall_velocity tas_touchdown thrust_idle density_ratio wing_loading_land
    glide_distance tr_distance delay_distance cl_max vehicle_mass
    landing_braking_friction_coefficient : ℝ) (h0 : 0 < vehicle_mass) (h1 : 0 < tas_touchdown) (h2
    : 0 < cl_max) (h3 : 0 < landing_stall_velocity) (h4 : (landing_braking_friction_coefficient -
    (thrust_idle / vehicle_mass)) + ((touchdown_cd - (landing_braking_friction_coefficient *
    touchdown_cl)) / (cl_max * ((landing_stall_velocity / tas_touchdown) ^ 2))) ≠ 0) (h5 : 0 <
    landing_braking_friction_coefficient - (thrust_idle / vehicle_mass)) (h6 : 0 <
    (landing_braking_friction_coefficient - (thrust_idle / vehicle_mass)) + ((touchdown_cd -
    (landing_braking_friction_coefficient * touchdown_cl)) / (cl_max * ((landing_stall_velocity /
    tas_touchdown) ^ 2)))) (h7 : 0 < density_ratio) (h8 : touchdown_cd -
    (landing_braking_friction_coefficient * touchdown_cl) ≠ 0) :
    HasDerivAt (fun t => out_landing_ground_distance touchdown_cd touchdown_cl landing_stall_velocity tas_touchdown thrust_idle density_ratio wing_loading_land t tr_distance delay_distance cl_max vehicle_mass landing_braking_friction_coefficient) (J_landing_ground_distance__glide_distance) glide_distance := by
  simp only [out_landing_ground_distance, J_landing_ground_distance__glide_distance, total_distance, ground_roll_distance, aln, arat, dlrl, frat, thrust_to_landing_weight_ratio]
  (apply hasDerivAt_of_eq; on_goal 1 => (repeat' comp_step))
  all_goals try comp_side
  all_goals try simp only [mul_zero, zero_mul, add_zero, zero_add, sub_zero, zero_sub, mul_one, one_mul]
  all_goals try push_cast
  all_goals comp_eq

theorem d_landing_ground_distance__tr_distance (touchdown_cd touchdown_cl landing_stall_velocity
    tas_touchdown thrust_idle density_ratio wing_loading_land glide_distance tr_distance
    delay_distance cl_max vehicle_mass landing_braking_friction_coefficient : ℝ) (h0 : 0 <
    vehicle_mass) (h1 : 0 < tas_touchdown) (h2 : 0 < cl_max) (h3 : 0 < landing_stall_velocity) (h4
    : (landing_braking_friction_coefficient - (thrust_idle / vehicle_mass)) + ((touchdown_cd -
    (landing_braking_friction_coefficient * touchdown_cl)) / (cl_max * ((landing_stall_velocity /
    tas_touchdown) ^ 2))) ≠ 0) (h5 : 0 < landing_braking_friction_coefficient - (thrust_idle /
    vehicle_mass)) (h6 : 0 < (landing_braking_friction_coefficient - (thrust_idle / vehicle_mass))
    + ((touchdown_cd - (landing_braking_friction_coefficient * touchdown_cl)) / (cl_max *
    ((landing_stall_velocity / tas_touchdown) ^ 2)))) (h7 : 0 < density_ratio) (h8 : touchdown_cd
    - (landing_braking_friction_coefficient * touchdown_cl) ≠ 0) :
    HasDerivAt (fun t => out_landing_ground_distance touchdown_cd touchdown_cl landing_stall_velocity tas_touchdown thrust_idle density_ratio wing_loading_land glide_distance t delay_distance cl_max vehicle_mass landing_braking_friction_coefficient) (J_landing_ground_distance__tr_distance) tr_distance := by
  simp only [out_landing_ground_distance, J_landing_ground_distance__tr_distance, total_distance, ground_roll_distance, aln, arat, dlrl, frat, thrust_to_landing_weight_ratio]
  (apply hasDerivAt_of_eq; on_goal 1 => (repeat' comp_step))
  all_goals try comp_side
  all_goals try simp only [mul_zero, zero_mul, add_zero, zero_add, sub_zero, zero_sub, mul_one, one_mul]
  all_goals try push_cast
  all_goals comp_eq

theorem d_landing_ground_distance__delay_distance (touchdown_cd touchdown_cl
    landing_stall_velocity tas_touchdown thrust_idle density_ratio wing_loading_land
    glide_distance tr_distance delay_distance cl_max vehicle_mass
    landing_braking_friction_coefficient : ℝ) (h0 : 0 < vehicle_mass) (h1 : 0 < tas_touchdown) (h2
    : 0 < cl_max) (h3 : 0 < landing_stall_velocity) (h4 : (landing_braking_friction_coefficient -
    (thrust_idle / vehicle_mass)) + ((touchdown_cd - (landing_braking_friction_coefficient *
    touchdown_cl)) / (cl_max * ((landing_stall_velocity / tas_touchdown) ^ 2))) ≠ 0) (h5 : 0 <
    landing_braking_friction_coefficient - (thrust_idle / vehicle_mass)) (h6 : 0 <
    (landing_braking_friction_coefficient - (thrust_idle / vehicle_mass)) + ((touchdown_cd -
    (landing_braking_friction_coefficient * touchdown_cl)) / (cl_max * ((landing_stall_velocity /
    tas_touchdown) ^ 2)))) (h7 : 0 < density_ratio) (h8 : touchdown_cd -
    (landing_braking_friction_coefficient * touchdown_cl) ≠ 0) :
    HasDerivAt (fun t => out_landing_ground_distance touchdown_cd touchdown_cl landing_stall_velocity tas_touchdown thrust_idle density_ratio wing_loading_land glide_distance tr_distance t cl_max vehicle_mass landing_braking_friction_coefficient) (J_landing_ground_distance__delay_distance) delay_distance := by
  simp only [out_landing_ground_distance, J_landing_ground_distance__delay_distance, total_distance, ground_roll_distance, aln, arat, dlrl, frat, thrust_to_landing_weight_ratio]
  (apply hasDerivAt_of_eq; on_goal 1 => (repeat' comp_step))
  all_goals try comp_side
  all_goals try simp only [mul_zero, zero_mul, add_zero, zero_add, sub_zero, zero_sub, mul_one, one_mul]
  all_goals try push_cast
  all_goals comp_eq

theorem d_landing_ground_distance__cl_max (touchdown_cd touchdown_cl landing_stall_velocity
    tas_touchdown thrust_idle density_ratio wing_loading_land glide_distance tr_distance
    delay_distance cl_max vehicle_mass landing_braking_friction_coefficient : ℝ) (h0 : 0 <
    vehicle_mass) (h1 : 0 < tas_touchdown) (h2 : 0 < cl_max) (h3 : 0 < landing_stall_velocity) (h4
    : (landing_braking_friction_coefficient - (thrust_idle / vehicle_mass)) + ((touchdown_cd -
    (landing_braking_friction_coefficient * touchdown_cl)) / (cl_max * ((landing_stall_velocity /
    tas_touchdown) ^ 2))) ≠ 0) (h5 : 0 < landing_braking_friction_coefficient - (thrust_idle /
    vehicle_mass)) (h6 : 0 < (landing_braking_friction_coefficient - (thrust_idle / vehicle_mass))
    + ((touchdown_cd - (landing_braking_friction_coefficient * touchdown_cl)) / (cl_max *
    ((landing_stall_velocity / tas_touchdown) ^ 2)))) (h7 : 0 < density_ratio) (h8 : touchdown_cd
    - (landing_braking_friction_coefficient * touchdown_cl) ≠ 0) (h9 :
    landing_braking_friction_coefficient - (thrust_idle / vehicle_mass) ≠ 0) :
    HasDerivAt (fun t => out_landing_ground_distance touchdown_cd touchdown_cl landing_stall_velocity tas_touchdown thrust_idle density_ratio wing_loading_land glide_distance tr_distance delay_distance t vehicle_mass landing_braking_friction_coefficient) (J_landing_ground_distance__cl_max touchdown_cd touchdown_cl landing_stall_velocity tas_touchdown thrust_idle density_ratio wing_loading_land cl_max vehicle_mass landing_braking_friction_coefficient) cl_max := by
  simp only [out_landing_ground_distance, J_landing_ground_distance__cl_max, dgrd_dclmax, daln_dclmax, darat_dclmax, total_distance, ground_roll_distance, aln, arat, dlrl, frat, thrust_to_landing_weight_ratio]
  (apply hasDerivAt_of_eq; on_goal 1 => (repeat' comp_step))
  all_goals try comp_side
  all_goals try simp only [mul_zero, zero_mul, add_zero, zero_add, sub_zero, zero_sub, mul_one, one_mul]
  all_goals try push_cast
  all_goals comp_eq

theorem d_landing_ground_distance__vehicle_mass (touchdown_cd touchdown_cl landing_stall_velocity
    tas_touchdown thrust_idle density_ratio wing_loading_land glide_distance tr_distance
    delay_distance cl_max vehicle_mass landing_braking_friction_coefficient : ℝ) (h0 : 0 <
    vehicle_mass) (h1 : 0 < tas_touchdown) (h2 : 0 < cl_max) (h3 : 0 < landing_stall_velocity) (h4
    : (landing_braking_friction_coefficient - (thrust_idle / vehicle_mass)) + ((touchdown_cd -
    (landing_braking_friction_coefficient * touchdown_cl)) / (cl_max * ((landing_stall_velocity /
    tas_touchdown) ^ 2))) ≠ 0) (h5 : 0 < landing_braking_friction_coefficient - (thrust_idle /
    vehicle_mass)) (h6 : 0 < (landing_braking_friction_coefficient - (thrust_idle / vehicle_mass))
    + ((touchdown_cd - (landing_braking_friction_coefficient * touchdown_cl)) / (cl_max *
    ((landing_stall_velocity / tas_touchdown) ^ 2)))) (h7 : 0 < density_ratio) (h8 : touchdown_cd
    - (landing_braking_friction_coefficient * touchdown_cl) ≠ 0) (h9 :
    landing_braking_friction_coefficient - (thrust_idle / vehicle_mass) ≠ 0) :
    HasDerivAt (fun t => out_landing_ground_distance touchdown_cd touchdown_cl landing_stall_velocity tas_touchdown thrust_idle density_ratio wing_loading_land glide_distance tr_distance delay_distance cl_max t landing_braking_friction_coefficient) (J_landing_ground_distance__vehicle_mass touchdown_cd touchdown_cl landing_stall_velocity tas_touchdown thrust_idle density_ratio wing_loading_land cl_max vehicle_mass landing_braking_friction_coefficient) vehicle_mass := by
  simp only [out_landing_ground_distance, J_landing_ground_distance__vehicle_mass, dgrd_dweight, daln_dweight, dfrat_dweight, total_distance, ground_roll_distance, aln, arat, dlrl, frat, thrust_to_landing_weight_ratio]
  (apply hasDerivAt_of_eq; on_goal 1 => (repeat' comp_step))
  all_goals try comp_side
  all_goals try simp only [mul_zero, zero_mul, add_zero, zero_add, sub_zero, zero_sub, mul_one, one_mul]
  all_goals try push_cast
  all_goals comp_eq

theorem d_landing_ground_distance__landing_braking_friction_coefficient (touchdown_cd touchdown_cl
    landing_stall_velocity tas_touchdown thrust_idle density_ratio wing_loading_land
    glide_distance tr_distance delay_distance cl_max vehicle_mass
    landing_braking_friction_coefficient : ℝ) (h0 : 0 < vehicle_mass) (h1 : 0 < tas_touchdown) (h2
    : 0 < cl_max) (h3 : 0 < landing_stall_velocity) (h4 : (landing_braking_friction_coefficient -
    (thrust_idle / vehicle_mass)) + ((touchdown_cd - (landing_braking_friction_coefficient *
    touchdown_cl)) / (cl_max * ((landing_stall_velocity / tas_touchdown) ^ 2))) ≠ 0) (h5 : 0 <
    landing_braking_friction_coefficient - (thrust_idle / vehicle_mass)) (h6 : 0 <
    (landing_braking_friction_coefficient - (thrust_idle / vehicle_mass)) + ((touchdown_cd -
    (landing_braking_friction_coefficient * touchdown_cl)) / (cl_max * ((landing_stall_velocity /
    tas_touchdown) ^ 2)))) (h7 : 0 < density_ratio) (h8 : touchdown_cd -
    (landing_braking_friction_coefficient * touchdown_cl) ≠ 0) (h9 :
    landing_braking_friction_coefficient - (thrust_idle / vehicle_mass) ≠ 0) :
    HasDerivAt (fun t => out_landing_ground_distance touchdown_cd touchdown_cl landing_stall_velocity tas_touchdown thrust_idle density_ratio wing_loading_land glide_distance tr_distance delay_distance cl_max vehicle_mass t) (J_landing_ground_distance__landing_braking_friction_coefficient touchdown_cd touchdown_cl landing_stall_velocity tas_touchdown thrust_idle density_ratio wing_loading_land cl_max vehicle_mass landing_braking_friction_coefficient) landing_braking_friction_coefficient := by
  simp only [out_landing_ground_distance, J_landing_ground_distance__landing_braking_friction_coefficient, dgrd_dmub, daln_dmub, darat_dmub, ddlrl_dmub, total_distance, ground_roll_distance, aln, arat, dlrl, frat, thrust_to_landing_weight_ratio]
  (apply hasDerivAt_of_eq; on_goal 1 => (repeat' comp_step))
  all_goals try comp_side
  all_goals try simp only [mul_zero, zero_mul, add_zero, zero_add, sub_zero, zero_sub, mul_one, one_mul]
  all_goals try push_cast
  all_goals comp_eq

theorem d_average_acceleration__touchdown_cd (gravity touchdown_cd touchdown_cl
    landing_stall_velocity tas_touchdown thrust_idle density_ratio wing_loading_land cl_max
    vehicle_mass landing_braking_friction_coefficient : ℝ) (h0 : 0 < vehicle_mass) (h1 : 0 <
    tas_touchdown) (h2 : 0 < cl_max) (h3 : 0 < landing_stall_velocity) (h4 :
    (landing_braking_friction_coefficient - (thrust_idle / vehicle_mass)) + ((touchdown_cd -
    (landing_braking_friction_coefficient * touchdown_cl)) / (cl_max * ((landing_stall_velocity /
    tas_touchdown) ^ 2))) ≠ 0) (h5 : 0 < landing_braking_friction_coefficient - (thrust_idle /
    vehicle_mass)) (h6 : 0 < (landing_braking_friction_coefficient - (thrust_idle / vehicle_mass))
    + ((touchdown_cd - (landing_braking_friction_coefficient * touchdown_cl)) / (cl_max *
    ((landing_stall_velocity / tas_touchdown) ^ 2)))) (h7 : 0 < density_ratio) (h8 : touchdown_cd
    - (landing_braking_friction_coefficient * touchdown_cl) ≠ 0) (h9 : 0 < wing_loading_land) (h10
    : log ((landing_braking_friction_coefficient - (thrust_idle / vehicle_mass)) /
    ((landing_braking_friction_coefficient - (thrust_idle / vehicle_mass)) + ((touchdown_cd -
    (landing_braking_friction_coefficient * touchdown_cl)) / (cl_max * ((landing_stall_velocity /
    tas_touchdown) ^ 2))))) ≠ 0) (h11 : 0 < gravity) (h12 : landing_braking_friction_coefficient -
    (thrust_idle / vehicle_mass) ≠ 0) :
    HasDerivAt (fun t => out_average_acceleration gravity t touchdown_cl landing_stall_velocity tas_touchdown thrust_idle density_ratio wing_loading_land cl_max vehicle_mass landing_braking_friction_coefficient) (J_average_acceleration__touchdown_cd gravity touchdown_cd touchdown_cl landing_stall_velocity tas_touchdown thrust_idle density_ratio wing_loading_land cl_max vehicle_mass landing_braking_friction_coefficient) touchdown_cd := by
  simp only [out_average_acceleration, J_average_acceleration__touchdown_cd, dgrd_dtouchdowncd, daln_dtouchdowncd, darat_dtouchdowncd, average_acceleration, ground_roll_distance, aln, arat, dlrl, frat, thrust_to_landing_weight_ratio]
  (apply hasDerivAt_of_eq; on_goal 1 => (repeat' comp_step))
  all_goals try comp_side
  all_goals try simp only [mul_zero, zero_mul, add_zero, zero_add, sub_zero, zero_sub, mul_one, one_mul]
  all_goals try push_cast
  all_goals comp_eq

theorem d_average_acceleration__touchdown_cl (gravity touchdown_cd touchdown_cl
    landing_stall_velocity tas_touchdown thrust_idle density_ratio wing_loading_land cl_max
    vehicle_mass landing_braking_friction_coefficient : ℝ) (h0 : 0 < vehicle_mass) (h1 : 0 <
    tas_touchdown) (h2 : 0 < cl_max) (h3 : 0 < landing_stall_velocity) (h4 :
    (landing_braking_friction_coefficient - (thrust_idle / vehicle_mass)) + ((touchdown_cd -
    (landing_braking_friction_coefficient * touchdown_cl)) / (cl_max * ((landing_stall_velocity /
    tas_touchdown) ^ 2))) ≠ 0) (h5 : 0 < landing_braking_friction_coefficient - (thrust_idle /
    vehicle_mass)) (h6 : 0 < (landing_braking_friction_coefficient - (thrust_idle / vehicle_mass))
    + ((touchdown_cd - (landing_braking_friction_coefficient * touchdown_cl)) / (cl_max *
    ((landing_stall_velocity / tas_touchdown) ^ 2)))) (h7 : 0 < density_ratio) (h8 : touchdown_cd
    - (landing_braking_friction_coefficient * touchdown_cl) ≠ 0) (h9 : 0 < wing_loading_land) (h10
    : log ((landing_braking_friction_coefficient - (thrust_idle / vehicle_mass)) /
    ((landing_braking_friction_coefficient - (thrust_idle / vehicle_mass)) + ((touchdown_cd -
    (landing_braking_friction_coefficient * touchdown_cl)) / (cl_max * ((landing_stall_velocity /
    tas_touchdown) ^ 2))))) ≠ 0) (h11 : 0 < gravity) (h12 : landing_braking_friction_coefficient -
    (thrust_idle / vehicle_mass) ≠ 0) :
    HasDerivAt (fun t => out_average_acceleration gravity touchdown_cd t landing_stall_velocity tas_touchdown thrust_idle density_ratio wing_loading_land cl_max vehicle_mass landing_braking_friction_coefficient) (J_average_acceleration__touchdown_cl gravity touchdown_cd touchdown_cl landing_stall_velocity tas_touchdown thrust_idle density_ratio wing_loading_land cl_max vehicle_mass landing_braking_friction_coefficient) touchdown_cl := by
  simp only [out_average_acceleration, J_average_acceleration__touchdown_cl, dgrd_dtouchdowncl, daln_dtouchdowncl, darat_dtouchdowncl, ddlrl_dtouchdowncl, average_acceleration, ground_roll_distance, aln, arat, dlrl, frat, thrust_to_landing_weight_ratio]
  (apply hasDerivAt_of_eq; on_goal 1 => (repeat' comp_step))
  all_goals try comp_side
  all_goals try simp only [mul_zero, zero_mul, add_zero, zero_add, sub_zero, zero_sub, mul_one, one_mul]
  all_goals try push_cast
  all_goals comp_eq

theorem d_average_acceleration__landing_stall_velocity (gravity touchdown_cd touchdown_cl
    landing_stall_velocity tas_touchdown thrust_idle density_ratio wing_loading_land cl_max
    vehicle_mass landing_braking_friction_coefficient : ℝ) (h0 : 0 < vehicle_mass) (h1 : 0 <
    tas_touchdown) (h2 : 0 < cl_max) (h3 : 0 < landing_stall_velocity) (h4 :
    (landing_braking_friction_coefficient - (thrust_idle / vehicle_mass)) + ((touchdown_cd -
    (landing_braking_friction_coefficient * touchdown_cl)) / (cl_max * ((landing_stall_velocity /
    tas_touchdown) ^ 2))) ≠ 0) (h5 : 0 < landing_braking_friction_coefficient - (thrust_idle /
    vehicle_mass)) (h6 : 0 < (landing_braking_friction_coefficient - (thrust_idle / vehicle_mass))
    + ((touchdown_cd - (landing_braking_friction_coefficient * touchdown_cl)) / (cl_max *
    ((landing_stall_velocity / tas_touchdown) ^ 2)))) (h7 : 0 < density_ratio) (h8 : touchdown_cd
    - (landing_braking_friction_coefficient * touchdown_cl) ≠ 0) (h9 : 0 < wing_loading_land) (h10
    : log ((landing_braking_friction_coefficient - (thrust_idle / vehicle_mass)) /
    ((landing_braking_friction_coefficient - (thrust_idle / vehicle_mass)) + ((touchdown_cd -
    (landing_braking_friction_coefficient * touchdown_cl)) / (cl_max * ((landing_stall_velocity /
    tas_touchdown) ^ 2))))) ≠ 0) (h11 : 0 < gravity) (h12 : landing_braking_friction_coefficient -
    (thrust_idle / vehicle_mass) ≠ 0) :
    HasDerivAt (fun t => out_average_acceleration gravity touchdown_cd touchdown_cl t tas_touchdown thrust_idle density_ratio wing_loading_land cl_max vehicle_mass landing_braking_friction_coefficient) (J_average_acceleration__landing_stall_velocity gravity touchdown_cd touchdown_cl landing_stall_velocity tas_touchdown thrust_idle density_ratio wing_loading_land cl_max vehicle_mass landing_braking_friction_coefficient) landing_stall_velocity := by
  simp only [out_average_acceleration, J_average_acceleration__landing_stall_velocity, dgrd_dtasstall, daln_dtasstall, darat_dtasstall, average_acceleration, ground_roll_distance, aln, arat, dlrl, frat, thrust_to_landing_weight_ratio]
  (apply hasDerivAt_of_eq; on_goal 1 => (repeat' comp_step))
  all_goals try comp_side
  all_goals try simp only [mul_zero, zero_mul, add_zero, zero_add, sub_zero, zero_sub, mul_one, one_mul]
  all_goals try push_cast
  all_goals comp_eq

theorem d_average_acceleration__tas_touchdown (gravity touchdown_cd touchdown_cl
    landing_stall_velocity tas_touchdown thrust_idle density_ratio wing_loading_land cl_max
    vehicle_mass landing_braking_friction_coefficient : ℝ) (h0 : 0 < vehicle_mass) (h1 : 0 <
    tas_touchdown) (h2 : 0 < cl_max) (h3 : 0 < landing_stall_velocity) (h4 :
    (landing_braking_friction_coefficient - (thrust_idle / vehicle_mass)) + ((touchdown_cd -
    (landing_braking_friction_coefficient * touchdown_cl)) / (cl_max * ((landing_stall_velocity /
    tas_touchdown) ^ 2))) ≠ 0) (h5 : 0 < landing_braking_friction_coefficient - (thrust_idle /
    vehicle_mass)) (h6 : 0 < (landing_braking_friction_coefficient - (thrust_idle / vehicle_mass))
    + ((touchdown_cd - (landing_braking_friction_coefficient * touchdown_cl)) / (cl_max *
    ((landing_stall_velocity / tas_touchdown) ^ 2)))) (h7 : 0 < density_ratio) (h8 : touchdown_cd
    - (landing_braking_friction_coefficient * touchdown_cl) ≠ 0) (h9 : 0 < wing_loading_land) (h10
    : log ((landing_braking_friction_coefficient - (thrust_idle / vehicle_mass)) /
    ((landing_braking_friction_coefficient - (thrust_idle / vehicle_mass)) + ((touchdown_cd -
    (landing_braking_friction_coefficient * touchdown_cl)) / (cl_max * ((landing_stall_velocity /
    tas_touchdown) ^ 2))))) ≠ 0) (h11 : 0 < gravity) (h12 : landing_braking_friction_coefficient -
    (thrust_idle / vehicle_mass) ≠ 0) :
    HasDerivAt (fun t => out_average_acceleration gravity touchdown_cd touchdown_cl landing_stall_velocity t thrust_idle density_ratio wing_loading_land cl_max vehicle_mass landing_braking_friction_coefficient) (J_average_acceleration__tas_touchdown gravity touchdown_cd touchdown_cl landing_stall_velocity tas_touchdown thrust_idle density_ratio wing_loading_land cl_max vehicle_mass landing_braking_friction_coefficient) tas_touchdown := by
  simp only [out_average_acceleration, J_average_acceleration__tas_touchdown, dgrd_dtastouchdown, daln_dtastouchdown, darat_dtastouchdown, average_acceleration, ground_roll_distance, aln, arat, dlrl, frat, thrust_to_landing_weight_ratio]
  (apply hasDerivAt_of_eq; on_goal 1 => (repeat' comp_step))
  all_goals try comp_side
  all_goals try simp only [mul_zero, zero_mul, add_zero, zero_add, sub_zero, zero_sub, mul_one, one_mul]
  all_goals try push_cast
  all_goals comp_eq

theorem d_average_acceleration__thrust_idle (gravity touchdown_cd touchdown_cl
    landing_stall_velocity tas_touchdown thrust_idle density_ratio wing_loading_land cl_max
    vehicle_mass landing_braking_friction_coefficient : ℝ) (h0 : 0 < vehicle_mass) (h1 : 0 <
    tas_touchdown) (h2 : 0 < cl_max) (h3 : 0 < landing_stall_velocity) (h4 :
    (landing_braking_friction_coefficient - (thrust_idle / vehicle_mass)) + ((touchdown_cd -
    (landing_braking_friction_coefficient * touchdown_cl)) / (cl_max * ((landing_stall_velocity /
    tas_touchdown) ^ 2))) ≠ 0) (h5 : 0 < landing_braking_friction_coefficient - (thrust_idle /
    vehicle_mass)) (h6 : 0 < (landing_braking_friction_coefficient - (thrust_idle / vehicle_mass))
    + ((touchdown_cd - (landing_braking_friction_coefficient * touchdown_cl)) / (cl_max *
    ((landing_stall_velocity / tas_touchdown) ^ 2)))) (h7 : 0 < density_ratio) (h8 : touchdown_cd
    - (landing_braking_friction_coefficient * touchdown_cl) ≠ 0) (h9 : 0 < wing_loading_land) (h10
    : log ((landing_braking_friction_coefficient - (thrust_idle / vehicle_mass)) /
    ((landing_braking_friction_coefficient - (thrust_idle / vehicle_mass)) + ((touchdown_cd -
    (landing_braking_friction_coefficient * touchdown_cl)) / (cl_max * ((landing_stall_velocity /
    tas_touchdown) ^ 2))))) ≠ 0) (h11 : 0 < gravity) (h12 : landing_braking_friction_coefficient -
    (thrust_idle / vehicle_mass) ≠ 0) :
    HasDerivAt (fun t => out_average_acceleration gravity touchdown_cd touchdown_cl landing_stall_velocity tas_touchdown t density_ratio wing_loading_land cl_max vehicle_mass landing_braking_friction_coefficient) (J_average_acceleration__thrust_idle gravity touchdown_cd touchdown_cl landing_stall_velocity tas_touchdown thrust_idle density_ratio wing_loading_land cl_max vehicle_mass landing_braking_friction_coefficient) thrust_idle := by
  simp only [out_average_acceleration, J_average_acceleration__thrust_idle, dgrd_dthrustidle, daln_dthrustidle, dfrat_dthrustidle, average_acceleration, ground_roll_distance, aln, arat, dlrl, frat, thrust_to_landing_weight_ratio]
  (apply hasDerivAt_of_eq; on_goal 1 => (repeat' comp_step))
  all_goals try comp_side
  all_goals try simp only [mul_zero, zero_mul, add_zero, zero_add, sub_zero, zero_sub, mul_one, one_mul]
  all_goals try push_cast
  all_goals comp_eq

theorem d_average_acceleration__density_ratio (gravity touchdown_cd touchdown_cl
    landing_stall_velocity tas_touchdown thrust_idle density_ratio wing_loading_land cl_max
    vehicle_mass landing_braking_friction_coefficient : ℝ) (h0 : 0 < vehicle_mass) (h1 : 0 <
    tas_touchdown) (h2 : 0 < cl_max) (h3 : 0 < landing_stall_velocity) (h4 :
    (landing_braking_friction_coefficient - (thrust_idle / vehicle_mass)) + ((touchdown_cd -
    (landing_braking_friction_coefficient * touchdown_cl)) / (cl_max * ((landing_stall_velocity /
    tas_touchdown) ^ 2))) ≠ 0) (h5 : 0 < landing_braking_friction_coefficient - (thrust_idle /
    vehicle_mass)) (h6 : 0 < (landing_braking_friction_coefficient - (thrust_idle / vehicle_mass))
    + ((touchdown_cd - (landing_braking_friction_coefficient * touchdown_cl)) / (cl_max *
    ((landing_stall_velocity / tas_touchdown) ^ 2)))) (h7 : 0 < density_ratio) (h8 : touchdown_cd
    - (landing_braking_friction_coefficient * touchdown_cl) ≠ 0) (h9 : 0 < wing_loading_land) (h10
    : log ((landing_braking_friction_coefficient - (thrust_idle / vehicle_mass)) /
    ((landing_braking_friction_coefficient - (thrust_idle / vehicle_mass)) + ((touchdown_cd -
    (landing_braking_friction_coefficient * touchdown_cl)) / (cl_max * ((landing_stall_velocity /
    tas_touchdown) ^ 2))))) ≠ 0) (h11 : 0 < gravity) :
    HasDerivAt (fun t => out_average_acceleration gravity touchdown_cd touchdown_cl landing_stall_velocity tas_touchdown thrust_idle t wing_loading_land cl_max vehicle_mass landing_braking_friction_coefficient) (J_average_acceleration__density_ratio gravity touchdown_cd touchdown_cl landing_stall_velocity tas_touchdown thrust_idle density_ratio wing_loading_land cl_max vehicle_mass landing_braking_friction_coefficient) density_ratio := by
  simp only [out_average_acceleration, J_average_acceleration__density_ratio, dgrd_ddensityratio, average_acceleration, ground_roll_distance, aln, arat, dlrl, frat, thrust_to_landing_weight_ratio]
  (apply hasDerivAt_of_eq; on_goal 1 => (repeat' comp_step))
  all_goals try comp_side
  all_goals try simp only [mul_zero, zero_mul, add_zero, zero_add, sub_zero, zero_sub, mul_one, one_mul]
  all_goals try push_cast
  all_goals comp_eq

theorem d_average_acceleration__wing_loading_land (gravity touchdown_cd touchdown_cl
    landing_stall_velocity tas_touchdown thrust_idle density_ratio wing_loading_land cl_max
    vehicle_mass landing_braking_friction_coefficient : ℝ) (h0 : 0 < vehicle_mass) (h1 : 0 <
    tas_touchdown) (h2 : 0 < cl_max) (h3 : 0 < landing_stall_velocity) (h4 :
    (landing_braking_friction_coefficient - (thrust_idle / vehicle_mass)) + ((touchdown_cd -
    (landing_braking_friction_coefficient * touchdown_cl)) / (cl_max * ((landing_stall_velocity /
    tas_touchdown) ^ 2))) ≠ 0) (h5 : 0 < landing_braking_friction_coefficient - (thrust_idle /
    vehicle_mass)) (h6 : 0 < (landing_braking_friction_coefficient - (thrust_idle / vehicle_mass))
    + ((touchdown_cd - (landing_braking_friction_coefficient * touchdown_cl)) / (cl_max *
    ((landing_stall_velocity / tas_touchdown) ^ 2)))) (h7 : 0 < density_ratio) (h8 : touchdown_cd
    - (landing_braking_friction_coefficient * touchdown_cl) ≠ 0) (h9 : 0 < wing_loading_land) (h10
    : log ((landing_braking_friction_coefficient - (thrust_idle / vehicle_mass)) /
    ((landing_braking_friction_coefficient - (thrust_idle / vehicle_mass)) + ((touchdown_cd -
    (landing_braking_friction_coefficient * touchdown_cl)) / (cl_max * ((landing_stall_velocity /
    tas_touchdown) ^ 2))))) ≠ 0) (h11 : 0 < gravity) :
    HasDerivAt (fun t => out_average_acceleration gravity touchdown_cd touchdown_cl landing_stall_velocity tas_touchdown thrust_idle density_ratio t cl_max vehicle_mass landing_braking_friction_coefficient) (J_average_acceleration__wing_loading_land gravity touchdown_cd touchdown_cl landing_stall_velocity tas_touchdown thrust_idle density_ratio wing_loading_land cl_max vehicle_mass landing_braking_friction_coefficient) wing_loading_land := by
  simp only [out_average_acceleration, J_average_acceleration__wing_loading_land, dgrd_dwingloadingland, average_acceleration, ground_roll_distance, aln, arat, dlrl, frat, thrust_to_landing_weight_ratio]
  (apply hasDerivAt_of_eq; on_goal 1 => (repeat' comp_step))
  all_goals try comp_side
  all_goals try simp only [mul_zero, zero_mul, add_zero, zero_add, sub_zero, zero_sub, mul_one, one_mul]
  all_goals try push_cast
  all_goals comp_eq

theorem d_average_acceleration__cl_max (gravity touchdown_cd touchdown_cl landing_stall_velocity
    tas_touchdown thrust_idle density_ratio wing_loading_land cl_max vehicle_mass
    landing_braking_friction_coefficient : ℝ) (h0 : 0 < vehicle_mass) (h1 : 0 < tas_touchdown) (h2
    : 0 < cl_max) (h3 : 0 < landing_stall_velocity) (h4 : (landing_braking_friction_coefficient -
    (thrust_idle / vehicle_mass)) + ((touchdown_cd - (landing_braking_friction_coefficient *
    touchdown_cl)) / (cl_max * ((landing_stall_velocity / tas_touchdown) ^ 2))) ≠ 0) (h5 : 0 <
    landing_braking_friction_coefficient - (thrust_idle / vehicle_mass)) (h6 : 0 <
    (landing_braking_friction_coefficient - (thrust_idle / vehicle_mass)) + ((touchdown_cd -
    (landing_braking_friction_coefficient * touchdown_cl)) / (cl_max * ((landing_stall_velocity /
    tas_touchdown) ^ 2)))) (h7 : 0 < density_ratio) (h8 : touchdown_cd -
    (landing_braking_friction_coefficient * touchdown_cl) ≠ 0) (h9 : 0 < wing_loading_land) (h10 :
    log ((landing_braking_friction_coefficient - (thrust_idle / vehicle_mass)) /
    ((landing_braking_friction_coefficient - (thrust_idle / vehicle_mass)) + ((touchdown_cd -
    (landing_braking_friction_coefficient * touchdown_cl)) / (cl_max * ((landing_stall_velocity /
    tas_touchdown) ^ 2))))) ≠ 0) (h11 : 0 < gravity) (h12 : landing_braking_friction_coefficient -
    (thrust_idle / vehicle_mass) ≠ 0) :
    HasDerivAt (fun t => out_average_acceleration gravity touchdown_cd touchdown_cl landing_stall_velocity tas_touchdown thrust_idle density_ratio wing_loading_land t vehicle_mass landing_braking_friction_coefficient) (J_average_acceleration__cl_max gravity touchdown_cd touchdown_cl landing_stall_velocity tas_touchdown thrust_idle density_ratio wing_loading_land cl_max vehicle_mass landing_braking_friction_coefficient) cl_max := by
  simp only [out_average_acceleration, J_average_acceleration__cl_max, dgrd_dclmax, daln_dclmax, darat_dclmax, average_acceleration, ground_roll_distance, aln, arat, dlrl, frat, thrust_to_landing_weight_ratio]
  (apply hasDerivAt_of_eq; on_goal 1 => (repeat' comp_step))
  all_goals try comp_side
  all_goals try simp only [mul_zero, zero_mul, add_zero, zero_add, sub_zero, zero_sub, mul_one, one_mul]
  all_goals try push_cast
  all_goals comp_eq

theorem d_average_acceleration__vehicle_mass (gravity touchdown_cd touchdown_cl
    landing_stall_velocity tas_touchdown thrust_idle density_ratio wing_loading_land cl_max
    vehicle_mass landing_braking_friction_coefficient : ℝ) (h0 : 0 < vehicle_mass) (h1 : 0 <
    tas_touchdown) (h2 : 0 < cl_max) (h3 : 0 < landing_stall_velocity) (h4 :
    (landing_braking_friction_coefficient - (thrust_idle / vehicle_mass)) + ((touchdown_cd -
    (landing_braking_friction_coefficient * touchdown_cl)) / (cl_max * ((landing_stall_velocity /
    tas_touchdown) ^ 2))) ≠ 0) (h5 : 0 < landing_braking_friction_coefficient - (thrust_idle /
    vehicle_mass)) (h6 : 0 < (landing_braking_friction_coefficient - (thrust_idle / vehicle_mass))
    + ((touchdown_cd - (landing_braking_friction_coefficient * touchdown_cl)) / (cl_max *
    ((landing_stall_velocity / tas_touchdown) ^ 2)))) (h7 : 0 < density_ratio) (h8 : touchdown_cd
    - (landing_braking_friction_coefficient * touchdown_cl) ≠ 0) (h9 : 0 < wing_loading_land) (h10
    : log ((landing_braking_friction_coefficient - (thrust_idle / vehicle_mass)) /
    ((landing_braking_friction_coefficient - (thrust_idle / vehicle_mass)) + ((touchdown_cd -
    (landing_braking_friction_coefficient * touchdown_cl)) / (cl_max * ((landing_stall_velocity /
    tas_touchdown) ^ 2))))) ≠ 0) (h11 : 0 < gravity) (h12 : landing_braking_friction_coefficient -
    (thrust_idle / vehicle_mass) ≠ 0) :
    HasDerivAt (fun t => out_average_acceleration gravity touchdown_cd touchdown_cl landing_stall_velocity tas_touchdown thrust_idle density_ratio wing_loading_land cl_max t landing_braking_friction_coefficient) (J_average_acceleration__vehicle_mass gravity touchdown_cd touchdown_cl landing_stall_velocity tas_touchdown thrust_idle density_ratio wing_loading_land cl_max vehicle_mass landing_braking_friction_coefficient) vehicle_mass := by
  simp only [out_average_acceleration, J_average_acceleration__vehicle_mass, dgrd_dweight, daln_dweight, dfrat_dweight, average_acceleration, ground_roll_distance, aln, arat, dlrl, frat, thrust_to_landing_weight_ratio]
  (apply hasDerivAt_of_eq; on_goal 1 => (repeat' comp_step))
  all_goals try comp_side
  all_goals try simp only [mul_zero, zero_mul, add_zero, zero_add, sub_zero, zero_sub, mul_one, one_mul]
  all_goals try push_cast
  all_goals comp_eq

theorem d_average_acceleration__landing_braking_friction_coefficient (gravity touchdown_cd
    touchdown_cl landing_stall_velocity tas_touchdown thrust_idle density_ratio wing_loading_land
    cl_max vehicle_mass landing_braking_friction_coefficient : ℝ) (h0 : 0 < vehicle_mass) (h1 : 0
    < tas_touchdown) (h2 : 0 < cl_max) (h3 : 0 < landing_stall_velocity) (h4 :
    (landing_braking_friction_coefficient - (thrust_idle / vehicle_mass)) + ((touchdown_cd -
    (landing_braking_friction_coefficient * touchdown_cl)) / (cl_max * ((landing_stall_velocity /
    tas_touchdown) ^ 2))) ≠ 0) (h5 : 0 < landing_braking_friction_coefficient - (thrust_idle /
    vehicle_mass)) (h6 : 0 < (landing_braking_friction_coefficient - (thrust_idle / vehicle_mass))
    + ((touchdown_cd - (landing_braking_friction_coefficient * touchdown_cl)) / (cl_max *
    ((landing_stall_velocity / tas_touchdown) ^ 2)))) (h7 : 0 < density_ratio) (h8 : touchdown_cd
    - (landing_braking_friction_coefficient * touchdown_cl) ≠ 0) (h9 : 0 < wing_loading_land) (h10
    : log ((landing_braking_friction_coefficient - (thrust_idle / vehicle_mass)) /
    ((landing_braking_friction_coefficient - (thrust_idle / vehicle_mass)) + ((touchdown_cd -
    (landing_braking_friction_coefficient * touchdown_cl)) / (cl_max * ((landing_stall_velocity /
    tas_touchdown) ^ 2))))) ≠ 0) (h11 : 0 < gravity) (h12 : landing_braking_friction_coefficient -
    (thrust_idle / vehicle_mass) ≠ 0) :
    HasDerivAt (fun t => out_average_acceleration gravity touchdown_cd touchdown_cl landing_stall_velocity tas_touchdown thrust_idle density_ratio wing_loading_land cl_max vehicle_mass t) (J_average_acceleration__landing_braking_friction_coefficient gravity touchdown_cd touchdown_cl landing_stall_velocity tas_touchdown thrust_idle density_ratio wing_loading_land cl_max vehicle_mass landing_braking_friction_coefficient) landing_braking_friction_coefficient := by
  simp only [out_average_acceleration, J_average_acceleration__landing_braking_friction_coefficient, dgrd_dmub, daln_dmub, darat_dmub, ddlrl_dmub, average_acceleration, ground_roll_distance, aln, arat, dlrl, frat, thrust_to_landing_weight_ratio]
  (apply hasDerivAt_of_eq; on_goal 1 => (repeat' comp_step))
  all_goals try comp_side
  all_goals try simp only [mul_zero, zero_mul, add_zero, zero_add, sub_zero, zero_sub, mul_one, one_mul]
  all_goals try push_cast
  all_goals comp_eq

/-- Every partial derivative set by `LandingGroundRollComponent` is the derivative of its output. -/
theorem partials (gravity touchdown_cd touchdown_cl landing_stall_velocity tas_touchdown
    thrust_idle density_ratio wing_loading_land glide_distance tr_distance delay_distance cl_max
    vehicle_mass landing_braking_friction_coefficient : ℝ) (h0 : 0 < vehicle_mass) (h1 : 0 <
    tas_touchdown) (h2 : 0 < cl_max) (h3 : 0 < landing_stall_velocity) (h4 :
    (landing_braking_friction_coefficient - (thrust_idle / vehicle_mass)) + ((touchdown_cd -
    (landing_braking_friction_coefficient * touchdown_cl)) / (cl_max * ((landing_stall_velocity /
    tas_touchdown) ^ 2))) ≠ 0) (h5 : 0 < landing_braking_friction_coefficient - (thrust_idle /
    vehicle_mass)) (h6 : 0 < (landing_braking_friction_coefficient - (thrust_idle / vehicle_mass))
    + ((touchdown_cd - (landing_braking_friction_coefficient * touchdown_cl)) / (cl_max *
    ((landing_stall_velocity / tas_touchdown) ^ 2)))) (h7 : 0 < density_ratio) (h8 : touchdown_cd
    - (landing_braking_friction_coefficient * touchdown_cl) ≠ 0) (h9 :
    landing_braking_friction_coefficient - (thrust_idle / vehicle_mass) ≠ 0) (h10 : 0 <
    wing_loading_land) (h11 : log ((landing_braking_friction_coefficient - (thrust_idle /
    vehicle_mass)) / ((landing_braking_friction_coefficient - (thrust_idle / vehicle_mass)) +
    ((touchdown_cd - (landing_braking_friction_coefficient * touchdown_cl)) / (cl_max *
    ((landing_stall_velocity / tas_touchdown) ^ 2))))) ≠ 0) (h12 : 0 < gravity) :
    HasDerivAt (fun t => out_ground_roll_distance t touchdown_cl landing_stall_velocity tas_touchdown
      thrust_idle density_ratio wing_loading_land cl_max vehicle_mass
      landing_braking_friction_coefficient) (J_ground_roll_distance__touchdown_cd touchdown_cd
      touchdown_cl landing_stall_velocity tas_touchdown thrust_idle density_ratio
      wing_loading_land cl_max vehicle_mass landing_braking_friction_coefficient) touchdown_cd ∧
    HasDerivAt (fun t => out_ground_roll_distance touchdown_cd t landing_stall_velocity tas_touchdown
      thrust_idle density_ratio wing_loading_land cl_max vehicle_mass
      landing_braking_friction_coefficient) (J_ground_roll_distance__touchdown_cl touchdown_cd
      touchdown_cl landing_stall_velocity tas_touchdown thrust_idle density_ratio
      wing_loading_land cl_max vehicle_mass landing_braking_friction_coefficient) touchdown_cl ∧
    HasDerivAt (fun t => out_ground_roll_distance touchdown_cd touchdown_cl t tas_touchdown
      thrust_idle density_ratio wing_loading_land cl_max vehicle_mass
      landing_braking_friction_coefficient) (J_ground_roll_distance__landing_stall_velocity
      touchdown_cd touchdown_cl landing_stall_velocity tas_touchdown thrust_idle density_ratio
      wing_loading_land cl_max vehicle_mass landing_braking_friction_coefficient)
      landing_stall_velocity ∧
    HasDerivAt (fun t => out_ground_roll_distance touchdown_cd touchdown_cl landing_stall_velocity t
      thrust_idle density_ratio wing_loading_land cl_max vehicle_mass
      landing_braking_friction_coefficient) (J_ground_roll_distance__tas_touchdown touchdown_cd
      touchdown_cl landing_stall_velocity tas_touchdown thrust_idle density_ratio
      wing_loading_land cl_max vehicle_mass landing_braking_friction_coefficient) tas_touchdown ∧
    HasDerivAt (fun t => out_ground_roll_distance touchdown_cd touchdown_cl landing_stall_velocity
      tas_touchdown t density_ratio wing_loading_land cl_max vehicle_mass
      landing_braking_friction_coefficient) (J_ground_roll_distance__thrust_idle touchdown_cd
      touchdown_cl landing_stall_velocity tas_touchdown thrust_idle density_ratio
      wing_loading_land cl_max vehicle_mass landing_braking_friction_coefficient) thrust_idle ∧
    HasDerivAt (fun t => out_ground_roll_distance touchdown_cd touchdown_cl landing_stall_velocity
      tas_touchdown thrust_idle t wing_loading_land cl_max vehicle_mass
      landing_braking_friction_coefficient) (J_ground_roll_distance__density_ratio touchdown_cd
      touchdown_cl landing_stall_velocity tas_touchdown thrust_idle density_ratio
      wing_loading_land cl_max vehicle_mass landing_braking_friction_coefficient) density_ratio ∧
    HasDerivAt (fun t => out_ground_roll_distance touchdown_cd touchdown_cl landing_stall_velocity
      tas_touchdown thrust_idle density_ratio t cl_max vehicle_mass
      landing_braking_friction_coefficient) (J_ground_roll_distance__wing_loading_land
      touchdown_cd touchdown_cl landing_stall_velocity tas_touchdown thrust_idle density_ratio
      cl_max vehicle_mass landing_braking_friction_coefficient) wing_loading_land ∧
    HasDerivAt (fun t => out_ground_roll_distance touchdown_cd touchdown_cl landing_stall_velocity
      tas_touchdown thrust_idle density_ratio wing_loading_land t vehicle_mass
      landing_braking_friction_coefficient) (J_ground_roll_distance__cl_max touchdown_cd
      touchdown_cl landing_stall_velocity tas_touchdown thrust_idle density_ratio
      wing_loading_land cl_max vehicle_mass landing_braking_friction_coefficient) cl_max ∧
    HasDerivAt (fun t => out_ground_roll_distance touchdown_cd touchdown_cl landing_stall_velocity
      tas_touchdown thrust_idle density_ratio wing_loading_land cl_max t
      landing_braking_friction_coefficient) (J_ground_roll_distance__vehicle_mass touchdown_cd
      touchdown_cl landing_stall_velocity tas_touchdown thrust_idle density_ratio
      wing_loading_land cl_max vehicle_mass landing_braking_friction_coefficient) vehicle_mass ∧
    HasDerivAt (fun t => out_ground_roll_distance touchdown_cd touchdown_cl landing_stall_velocity
      tas_touchdown thrust_idle density_ratio wing_loading_land cl_max vehicle_mass t)
      (J_ground_roll_distance__landing_braking_friction_coefficient touchdown_cd touchdown_cl
      landing_stall_velocity tas_touchdown thrust_idle density_ratio wing_loading_land cl_max
      vehicle_mass landing_braking_friction_coefficient) landing_braking_friction_coefficient ∧
    HasDerivAt (fun t => out_landing_ground_distance t touchdown_cl landing_stall_velocity
      tas_touchdown thrust_idle density_ratio wing_loading_land glide_distance tr_distance
      delay_distance cl_max vehicle_mass landing_braking_friction_coefficient)
      (J_landing_ground_distance__touchdown_cd touchdown_cd touchdown_cl landing_stall_velocity
      tas_touchdown thrust_idle density_ratio wing_loading_land cl_max vehicle_mass
      landing_braking_friction_coefficient) touchdown_cd ∧
    HasDerivAt (fun t => out_landing_ground_distance touchdown_cd t landing_stall_velocity
      tas_touchdown thrust_idle density_ratio wing_loading_land glide_distance tr_distance
      delay_distance cl_max vehicle_mass landing_braking_friction_coefficient)
      (J_landing_ground_distance__touchdown_cl touchdown_cd touchdown_cl landing_stall_velocity
      tas_touchdown thrust_idle density_ratio wing_loading_land cl_max vehicle_mass
      landing_braking_friction_coefficient) touchdown_cl ∧
    HasDerivAt (fun t => out_landing_ground_distance touchdown_cd touchdown_cl t tas_touchdown
      thrust_idle density_ratio wing_loading_land glide_distance tr_distance delay_distance cl_max
      vehicle_mass landing_braking_friction_coefficient)
      (J_landing_ground_distance__landing_stall_velocity touchdown_cd touchdown_cl
      landing_stall_velocity tas_touchdown thrust_idle density_ratio wing_loading_land cl_max
      vehicle_mass landing_braking_friction_coefficient) landing_stall_velocity ∧
    HasDerivAt (fun t => out_landing_ground_distance touchdown_cd touchdown_cl landing_stall_velocity
      t thrust_idle density_ratio wing_loading_land glide_distance tr_distance delay_distance
      cl_max vehicle_mass landing_braking_friction_coefficient)
      (J_landing_ground_distance__tas_touchdown touchdown_cd touchdown_cl landing_stall_velocity
      tas_touchdown thrust_idle density_ratio wing_loading_land cl_max vehicle_mass
      landing_braking_friction_coefficient) tas_touchdown ∧
    HasDerivAt (fun t => out_landing_ground_distance touchdown_cd touchdown_cl landing_stall_velocity
      tas_touchdown t density_ratio wing_loading_land glide_distance tr_distance delay_distance
      cl_max vehicle_mass landing_braking_friction_coefficient)
      (J_landing_ground_distance__thrust_idle touchdown_cd touchdown_cl landing_stall_velocity
      tas_touchdown thrust_idle density_ratio wing_loading_land cl_max vehicle_mass
      landing_braking_friction_coefficient) thrust_idle ∧
    HasDerivAt (fun t => out_landing_ground_distance touchdown_cd touchdown_cl landing_stall_velocity
      tas_touchdown thrust_idle t wing_loading_land glide_distance tr_distance delay_distance
      cl_max vehicle_mass landing_braking_friction_coefficient)
      (J_landing_ground_distance__density_ratio touchdown_cd touchdown_cl landing_stall_velocity
      tas_touchdown thrust_idle density_ratio wing_loading_land cl_max vehicle_mass
      landing_braking_friction_coefficient) density_ratio ∧
    HasDerivAt (fun t => out_landing_ground_distance touchdown_cd touchdown_cl landing_stall_velocity
      tas_touchdown thrust_idle density_ratio t glide_distance tr_distance delay_distance cl_max
      vehicle_mass landing_braking_friction_coefficient)
      (J_landing_ground_distance__wing_loading_land touchdown_cd touchdown_cl
      landing_stall_velocity tas_touchdown thrust_idle density_ratio cl_max vehicle_mass
      landing_braking_friction_coefficient) wing_loading_land ∧
    HasDerivAt (fun t => out_landing_ground_distance touchdown_cd touchdown_cl landing_stall_velocity
      tas_touchdown thrust_idle density_ratio wing_loading_land t tr_distance delay_distance
      cl_max vehicle_mass landing_braking_friction_coefficient)
      (J_landing_ground_distance__glide_distance) glide_distance ∧
    HasDerivAt (fun t => out_landing_ground_distance touchdown_cd touchdown_cl landing_stall_velocity
      tas_touchdown thrust_idle density_ratio wing_loading_land glide_distance t delay_distance
      cl_max vehicle_mass landing_braking_friction_coefficient)
      (J_landing_ground_distance__tr_distance) tr_distance ∧
    HasDerivAt (fun t => out_landing_ground_distance touchdown_cd touchdown_cl landing_stall_velocity
      tas_touchdown thrust_idle density_ratio wing_loading_land glide_distance tr_distance t
      cl_max vehicle_mass landing_braking_friction_coefficient)
      (J_landing_ground_distance__delay_distance) delay_distance ∧
    HasDerivAt (fun t => out_landing_ground_distance touchdown_cd touchdown_cl landing_stall_velocity
      tas_touchdown thrust_idle density_ratio wing_loading_land glide_distance tr_distance
      delay_distance t vehicle_mass landing_braking_friction_coefficient)
      (J_landing_ground_distance__cl_max touchdown_cd touchdown_cl landing_stall_velocity
      tas_touchdown thrust_idle density_ratio wing_loading_land cl_max vehicle_mass
      landing_braking_friction_coefficient) cl_max ∧
    HasDerivAt (fun t => out_landing_ground_distance touchdown_cd touchdown_cl landing_stall_velocity
      tas_touchdown thrust_idle density_ratio wing_loading_land glide_distance tr_distance
      delay_distance cl_max t landing_braking_friction_coefficient)
      (J_landing_ground_distance__vehicle_mass touchdown_cd touchdown_cl landing_stall_velocity
      tas_touchdown thrust_idle density_ratio wing_loading_land cl_max vehicle_mass
      landing_braking_friction_coefficient) vehicle_mass ∧
    HasDerivAt (fun t => out_landing_ground_distance touchdown_cd touchdown_cl landing_stall_velocity
      tas_touchdown thrust_idle density_ratio wing_loading_land glide_distance tr_distance
      delay_distance cl_max vehicle_mass t)
      (J_landing_ground_distance__landing_braking_friction_coefficient touchdown_cd touchdown_cl
      landing_stall_velocity tas_touchdown thrust_idle density_ratio wing_loading_land cl_max
      vehicle_mass landing_braking_friction_coefficient) landing_braking_friction_coefficient ∧
    HasDerivAt (fun t => out_average_acceleration gravity t touchdown_cl landing_stall_velocity
      tas_touchdown thrust_idle density_ratio wing_loading_land cl_max vehicle_mass
      landing_braking_friction_coefficient) (J_average_acceleration__touchdown_cd gravity
      touchdown_cd touchdown_cl landing_stall_velocity tas_touchdown thrust_idle density_ratio
      wing_loading_land cl_max vehicle_mass landing_braking_friction_coefficient) touchdown_cd ∧
    HasDerivAt (fun t => out_average_acceleration gravity touchdown_cd t landing_stall_velocity
      tas_touchdown thrust_idle density_ratio wing_loading_land cl_max vehicle_mass
      landing_braking_friction_coefficient) (J_average_acceleration__touchdown_cl gravity
      touchdown_cd touchdown_cl landing_stall_velocity tas_touchdown thrust_idle density_ratio
      wing_loading_land cl_max vehicle_mass landing_braking_friction_coefficient) touchdown_cl ∧
    HasDerivAt (fun t => out_average_acceleration gravity touchdown_cd touchdown_cl t tas_touchdown
      thrust_idle density_ratio wing_loading_land cl_max vehicle_mass
      landing_braking_friction_coefficient) (J_average_acceleration__landing_stall_velocity
      gravity touchdown_cd touchdown_cl landing_stall_velocity tas_touchdown thrust_idle
      density_ratio wing_loading_land cl_max vehicle_mass landing_braking_friction_coefficient)
      landing_stall_velocity ∧
    HasDerivAt (fun t => out_average_acceleration gravity touchdown_cd touchdown_cl
      landing_stall_velocity t thrust_idle density_ratio wing_loading_land cl_max vehicle_mass
      landing_braking_friction_coefficient) (J_average_acceleration__tas_touchdown gravity
      touchdown_cd touchdown_cl landing_stall_velocity tas_touchdown thrust_idle density_ratio
      wing_loading_land cl_max vehicle_mass landing_braking_friction_coefficient) tas_touchdown ∧
    HasDerivAt (fun t => out_average_acceleration gravity touchdown_cd touchdown_cl
      landing_stall_velocity tas_touchdown t density_ratio wing_loading_land cl_max vehicle_mass
      landing_braking_friction_coefficient) (J_average_acceleration__thrust_idle gravity
      touchdown_cd touchdown_cl landing_stall_velocity tas_touchdown thrust_idle density_ratio
      wing_loading_land cl_max vehicle_mass landing_braking_friction_coefficient) thrust_idle ∧
    HasDerivAt (fun t => out_average_acceleration gravity touchdown_cd touchdown_cl
      landing_stall_velocity tas_touchdown thrust_idle t wing_loading_land cl_max vehicle_mass
      landing_braking_friction_coefficient) (J_average_acceleration__density_ratio gravity
      touchdown_cd touchdown_cl landing_stall_velocity tas_touchdown thrust_idle density_ratio
      wing_loading_land cl_max vehicle_mass landing_braking_friction_coefficient) density_ratio ∧
    HasDerivAt (fun t => out_average_acceleration gravity touchdown_cd touchdown_cl
      landing_stall_velocity tas_touchdown thrust_idle density_ratio t cl_max vehicle_mass
      landing_braking_friction_coefficient) (J_average_acceleration__wing_loading_land gravity
      touchdown_cd touchdown_cl landing_stall_velocity tas_touchdown thrust_idle density_ratio
      wing_loading_land cl_max vehicle_mass landing_braking_friction_coefficient)
      wing_loading_land ∧
    HasDerivAt (fun t => out_average_acceleration gravity touchdown_cd touchdown_cl
      landing_stall_velocity tas_touchdown thrust_idle density_ratio wing_loading_land t
      vehicle_mass landing_braking_friction_coefficient) (J_average_acceleration__cl_max gravity
      touchdown_cd touchdown_cl landing_stall_velocity tas_touchdown thrust_idle density_ratio
      wing_loading_land cl_max vehicle_mass landing_braking_friction_coefficient) cl_max ∧
    HasDerivAt (fun t => out_average_acceleration gravity touchdown_cd touchdown_cl
      landing_stall_velocity tas_touchdown thrust_idle density_ratio wing_loading_land cl_max t
      landing_braking_friction_coefficient) (J_average_acceleration__vehicle_mass gravity
      touchdown_cd touchdown_cl landing_stall_velocity tas_touchdown thrust_idle density_ratio
      wing_loading_land cl_max vehicle_mass landing_braking_friction_coefficient) vehicle_mass ∧
    HasDerivAt (fun t => out_average_acceleration gravity touchdown_cd touchdown_cl
      landing_stall_velocity tas_touchdown thrust_idle density_ratio wing_loading_land cl_max
      vehicle_mass t) (J_average_acceleration__landing_braking_friction_coefficient gravity
      touchdown_cd touchdown_cl landing_stall_velocity tas_touchdown thrust_idle density_ratio
      wing_loading_land cl_max vehicle_mass landing_braking_friction_coefficient)
      landing_braking_friction_coefficient :=
  ⟨d_ground_roll_distance__touchdown_cd _ _ _ _ _ _ _ _ _ _ h0 h1 h2 h3 h4 h5 h6 h7 h8 h9,
    d_ground_roll_distance__touchdown_cl _ _ _ _ _ _ _ _ _ _ h0 h1 h2 h3 h4 h5 h6 h7 h8 h9,
    d_ground_roll_distance__landing_stall_velocity _ _ _ _ _ _ _ _ _ _ h0 h1 h2 h3 h4 h5 h6 h7 h8
    h9, d_ground_roll_distance__tas_touchdown _ _ _ _ _ _ _ _ _ _ h0 h1 h2 h3 h4 h5 h6 h7 h8 h9,
    d_ground_roll_distance__thrust_idle _ _ _ _ _ _ _ _ _ _ h0 h1 h2 h3 h4 h5 h6 h7 h8 h9,
    d_ground_roll_distance__density_ratio _ _ _ _ _ _ _ _ _ _ h0 h1 h2 h3 h4 h5 h6 h7 h8,
    d_ground_roll_distance__wing_loading_land _ _ _ _ _ _ _ _ _ _ h0 h1 h2 h3 h4 h5 h6 h7 h8,
    d_ground_roll_distance__cl_max _ _ _ _ _ _ _ _ _ _ h0 h1 h2 h3 h4 h5 h6 h7 h8 h9,
    d_ground_roll_distance__vehicle_mass _ _ _ _ _ _ _ _ _ _ h0 h1 h2 h3 h4 h5 h6 h7 h8 h9,
    d_ground_roll_distance__landing_braking_friction_coefficient _ _ _ _ _ _ _ _ _ _ h0 h1 h2 h3
    h4 h5 h6 h7 h8 h9, d_landing_ground_distance__touchdown_cd _ _ _ _ _ _ _ _ _ _ _ _ _ h0 h1 h2
    h3 h4 h5 h6 h7 h8 h9, d_landing_ground_distance__touchdown_cl _ _ _ _ _ _ _ _ _ _ _ _ _ h0 h1
    h2 h3 h4 h5 h6 h7 h8 h9, d_landing_ground_distance__landing_stall_velocity _ _ _ _ _ _ _ _ _ _
    _ _ _ h0 h1 h2 h3 h4 h5 h6 h7 h8 h9, d_landing_ground_distance__tas_touchdown _ _ _ _ _ _ _ _
    _ _ _ _ _ h0 h1 h2 h3 h4 h5 h6 h7 h8 h9, d_landing_ground_distance__thrust_idle _ _ _ _ _ _ _
    _ _ _ _ _ _ h0 h1 h2 h3 h4 h5 h6 h7 h8 h9, d_landing_ground_distance__density_ratio _ _ _ _ _
    _ _ _ _ _ _ _ _ h0 h1 h2 h3 h4 h5 h6 h7 h8, d_landing_ground_distance__wing_loading_land _ _ _
    _ _ _ _ _ _ _ _ _ _ h0 h1 h2 h3 h4 h5 h6 h7 h8, d_landing_ground_distance__glide_distance _ _
    _ _ _ _ _ _ _ _ _ _ _ h0 h1 h2 h3 h4 h5 h6 h7 h8, d_landing_ground_distance__tr_distance _ _ _
    _ _ _ _ _ _ _ _ _ _ h0 h1 h2 h3 h4 h5 h6 h7 h8, d_landing_ground_distance__delay_distance _ _
    _ _ _ _ _ _ _ _ _ _ _ h0 h1 h2 h3 h4 h5 h6 h7 h8, d_landing_ground_distance__cl_max _ _ _ _ _
    _ _ _ _ _ _ _ _ h0 h1 h2 h3 h4 h5 h6 h7 h8 h9, d_landing_ground_distance__vehicle_mass _ _ _ _
    _ _ _ _ _ _ _ _ _ h0 h1 h2 h3 h4 h5 h6 h7 h8 h9,
    d_landing_ground_distance__landing_braking_friction_coefficient _ _ _ _ _ _ _ _ _ _ _ _ _ h0
    h1 h2 h3 h4 h5 h6 h7 h8 h9, d_average_acceleration__touchdown_cd _ _ _ _ _ _ _ _ _ _ _ h0 h1
    h2 h3 h4 h5 h6 h7 h8 h10 h11 h12 h9, d_average_acceleration__touchdown_cl _ _ _ _ _ _ _ _ _ _
    _ h0 h1 h2 h3 h4 h5 h6 h7 h8 h10 h11 h12 h9, d_average_acceleration__landing_stall_velocity _
    _ _ _ _ _ _ _ _ _ _ h0 h1 h2 h3 h4 h5 h6 h7 h8 h10 h11 h12 h9,
    d_average_acceleration__tas_touchdown _ _ _ _ _ _ _ _ _ _ _ h0 h1 h2 h3 h4 h5 h6 h7 h8 h10 h11
    h12 h9, d_average_acceleration__thrust_idle _ _ _ _ _ _ _ _ _ _ _ h0 h1 h2 h3 h4 h5 h6 h7 h8
    h10 h11 h12 h9, d_average_acceleration__density_ratio _ _ _ _ _ _ _ _ _ _ _ h0 h1 h2 h3 h4 h5
    h6 h7 h8 h10 h11 h12, d_average_acceleration__wing_loading_land _ _ _ _ _ _ _ _ _ _ _ h0 h1 h2
    h3 h4 h5 h6 h7 h8 h10 h11 h12, d_average_acceleration__cl_max _ _ _ _ _ _ _ _ _ _ _ h0 h1 h2
    h3 h4 h5 h6 h7 h8 h10 h11 h12 h9, d_average_acceleration__vehicle_mass _ _ _ _ _ _ _ _ _ _ _
    h0 h1 h2 h3 h4 h5 h6 h7 h8 h10 h11 h12 h9,
    d_average_acceleration__landing_braking_friction_coefficient _ _ _ _ _ _ _ _ _ _ _ h0 h1 h2 h3
    h4 h5 h6 h7 h8 h10 h11 h12 h9⟩

example : ∃ gravity touchdown_cd touchdown_cl landing_stall_velocity tas_touchdown thrust_idle
      density_ratio wing_loading_land glide_distance tr_distance delay_distance cl_max
      vehicle_mass landing_braking_friction_coefficient : ℝ,
      0 < vehicle_mass ∧
      0 < tas_touchdown ∧
      0 < cl_max ∧
      0 < landing_stall_velocity ∧
      (landing_braking_friction_coefficient - (thrust_idle / vehicle_mass)) + ((touchdown_cd -
        (landing_braking_friction_coefficient * touchdown_cl)) / (cl_max *
        ((landing_stall_velocity / tas_touchdown) ^ 2))) ≠ 0 ∧
      0 < landing_braking_friction_coefficient - (thrust_idle / vehicle_mass) ∧
      0 < (landing_braking_friction_coefficient - (thrust_idle / vehicle_mass)) + ((touchdown_cd -
        (landing_braking_friction_coefficient * touchdown_cl)) / (cl_max *
        ((landing_stall_velocity / tas_touchdown) ^ 2))) ∧
      0 < density_ratio ∧
      touchdown_cd - (landing_braking_friction_coefficient * touchdown_cl) ≠ 0 ∧
      landing_braking_friction_coefficient - (thrust_idle / vehicle_mass) ≠ 0 ∧
      0 < wing_loading_land ∧
      log ((landing_braking_friction_coefficient - (thrust_idle / vehicle_mass)) /
        ((landing_braking_friction_coefficient - (thrust_idle / vehicle_mass)) + ((touchdown_cd -
        (landing_braking_friction_coefficient * touchdown_cl)) / (cl_max *
        ((landing_stall_velocity / tas_touchdown) ^ 2))))) ≠ 0 ∧
      0 < gravity :=
  ⟨1, 1, 0, 1, 1, 0, 1, 1, 1, 1, 0, 1, 1, 1, by comp_example, by comp_example, by comp_example, by
    comp_example, by comp_example, by comp_example, by comp_example, by comp_example, by
    comp_example, by comp_example, by comp_example, by comp_example, by comp_example⟩

end Verif.Comp.MissionTwoDofOdeLandingEom.LandingGroundRollComponent

