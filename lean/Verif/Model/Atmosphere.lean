import Mathlib.Analysis.SpecialFunctions.Pow.Real
import Mathlib.Analysis.SpecialFunctions.Sqrt

/-!
# Model of the atmosphere components
(aviary/subsystems/atmosphere/atmosphere.py:190-336, aviary/subsystems/atmosphere/flight_conditions.py:177-252)

Real numbers, one node (all Jacobians are diagonal in the nodes, aviary/subsystems/atmosphere/atmosphere.py:173-187,
aviary/subsystems/atmosphere/flight_conditions.py:61-175).
-/

namespace Verif
noncomputable section
open Classical

/-- Coefficients of one bin of an Akima table (`coeffs[:, 0..3]`).
Part of the model of aviary/subsystems/atmosphere/atmosphere.py:221. -/
structure Cubic where
  a : ℝ
  b : ℝ
  c : ℝ
  d : ℝ

/-- `coeffs[:,0] + dx * (coeffs[:,1] + dx * (coeffs[:,2] + dx * coeffs[:,3]))`, aviary/subsystems/atmosphere/atmosphere.py:221. -/
def Cubic.val (q : Cubic) (dx : ℝ) : ℝ := q.a + dx * (q.b + dx * (q.c + dx * q.d))

/-- `coeffs[:,1] + dx * (2.0 * coeffs[:,2] + 3.0 * coeffs[:,3] * dx)`, aviary/subsystems/atmosphere/atmosphere.py:279. -/
def Cubic.slope (q : Cubic) (dx : ℝ) : ℝ := q.b + dx * (2 * q.c + 3 * q.d * dx)

/-- `self.source_data`: table altitudes and the four coefficient tables, one row per bin.
Part of the model of aviary/subsystems/atmosphere/atmosphere.py:100-143. -/
structure AtmTable where
  alt : List ℝ
  T : ℕ → Cubic
  P : ℕ → Cubic
  rho : ℕ → Cubic
  dT : ℕ → Cubic

/-- Constants of the component, aviary/subsystems/atmosphere/atmosphere.py:100-143. -/
structure AtmCfg where
  tab : AtmTable
  geometric : Bool
  R0 : ℝ
  dt : ℝ
  Rair : ℝ
  K : ℝ
  S : ℝ
  beta : ℝ

/-- Geopotential altitude, aviary/subsystems/atmosphere/atmosphere.py:204-208. -/
def AtmCfg.z (c : AtmCfg) (h : ℝ) : ℝ := if c.geometric then h / (c.R0 + h) * c.R0 else h

/-- `np.searchsorted(table_points, z, side='left')` for a sorted table: the number of points below `z`.
Part of the model of aviary/subsystems/atmosphere/atmosphere.py:212-214. -/
def bin (alt : List ℝ) (z : ℝ) : ℕ := (alt.filter (fun t => decide (t < z))).length

/-- `h - h_bin_left[idx]` with `h_bin_left = hstack((table_points[0], table_points))`, aviary/subsystems/atmosphere/atmosphere.py:212-214. -/
def AtmCfg.dx (c : AtmCfg) (z : ℝ) : ℝ := z - (c.tab.alt.headD 0 :: c.tab.alt).getD (bin c.tab.alt z) 0

/-! ### `compute`, aviary/subsystems/atmosphere/atmosphere.py:190-249 -/

/-- aviary/subsystems/atmosphere/atmosphere.py:216-219 -/
def AtmCfg.temperature (c : AtmCfg) (h : ℝ) : ℝ :=
  (c.tab.T (bin c.tab.alt (c.z h))).val (c.dx (c.z h)) + c.dt
/-- aviary/subsystems/atmosphere/atmosphere.py:221-224 -/
def AtmCfg.pressure (c : AtmCfg) (h : ℝ) : ℝ := (c.tab.P (bin c.tab.alt (c.z h))).val (c.dx (c.z h))
/-- aviary/subsystems/atmosphere/atmosphere.py:226-227 -/
def AtmCfg.rawDensity (c : AtmCfg) (h : ℝ) : ℝ := (c.tab.rho (bin c.tab.alt (c.z h))).val (c.dx (c.z h))
/-- aviary/subsystems/atmosphere/atmosphere.py:234-236 -/
def AtmCfg.density (c : AtmCfg) (h : ℝ) : ℝ := ((c.rawDensity h)⁻¹ + c.Rair * c.dt * (c.pressure h)⁻¹)⁻¹
/-- aviary/subsystems/atmosphere/atmosphere.py:239 -/
def AtmCfg.sos (c : AtmCfg) (h : ℝ) : ℝ := (c.K * c.temperature h) ^ (1 / 2 : ℝ)
/-- aviary/subsystems/atmosphere/atmosphere.py:242-243 -/
def AtmCfg.tempSlopeTable (c : AtmCfg) (h : ℝ) : ℝ := (c.tab.dT (bin c.tab.alt (c.z h))).val (c.dx (c.z h))
/-- aviary/subsystems/atmosphere/atmosphere.py:244 -/
def AtmCfg.dsosDh (c : AtmCfg) (h : ℝ) : ℝ :=
  1 / 2 * (c.K * c.temperature h) ^ (-(1 / 2) : ℝ) * c.tempSlopeTable h * c.K
/-- aviary/subsystems/atmosphere/atmosphere.py:247-249 -/
def AtmCfg.viscosity (c : AtmCfg) (h : ℝ) : ℝ :=
  c.beta * c.temperature h ^ (3 / 2 : ℝ) * (c.temperature h + c.S)⁻¹

/-! ### `compute_partials`, aviary/subsystems/atmosphere/atmosphere.py:251-336 -/

/-- `dz_dh`, aviary/subsystems/atmosphere/atmosphere.py:264-268 -/
def AtmCfg.dzDh (c : AtmCfg) (h : ℝ) : ℝ := if c.geometric then (c.R0 / (c.R0 + h)) ^ 2 else 1
/-- aviary/subsystems/atmosphere/atmosphere.py:278 -/
def AtmCfg.dT (c : AtmCfg) (h : ℝ) : ℝ := (c.tab.T (bin c.tab.alt (c.z h))).slope (c.dx (c.z h))
/-- aviary/subsystems/atmosphere/atmosphere.py:283 -/
def AtmCfg.dP (c : AtmCfg) (h : ℝ) : ℝ := (c.tab.P (bin c.tab.alt (c.z h))).slope (c.dx (c.z h))
/-- aviary/subsystems/atmosphere/atmosphere.py:287-289 -/
def AtmCfg.dRawRho (c : AtmCfg) (h : ℝ) : ℝ := (c.tab.rho (bin c.tab.alt (c.z h))).slope (c.dx (c.z h))
/-- aviary/subsystems/atmosphere/atmosphere.py:291-298 -/
def AtmCfg.dRho (c : AtmCfg) (h : ℝ) : ℝ :=
  -1 * ((c.rawDensity h)⁻¹ + c.Rair * c.dt * (c.pressure h)⁻¹) ^ (-2 : ℤ) *
    (-1 * (c.rawDensity h) ^ (-2 : ℤ) * c.dRawRho h + (-1 * c.Rair * c.dt * (c.pressure h) ^ (-2 : ℤ) * c.dP h))
/-- aviary/subsystems/atmosphere/atmosphere.py:302-305 -/
def AtmCfg.dVisc (c : AtmCfg) (h : ℝ) : ℝ :=
  3 / 2 * c.beta * c.temperature h ^ (1 / 2 : ℝ) * c.dT h * (c.temperature h + c.S)⁻¹ +
    c.beta * c.temperature h ^ (3 / 2 : ℝ) * -1 * (c.temperature h + c.S) ^ (-2 : ℤ) * c.dT h
/-- aviary/subsystems/atmosphere/atmosphere.py:309 -/
def AtmCfg.dSos (c : AtmCfg) (h : ℝ) : ℝ := 1 / 2 * (c.K * c.temperature h) ^ (-(1 / 2) : ℝ) * c.K * c.dT h
/-- aviary/subsystems/atmosphere/atmosphere.py:312-313 -/
def AtmCfg.d2T (c : AtmCfg) (h : ℝ) : ℝ := (c.tab.dT (bin c.tab.alt (c.z h))).slope (c.dx (c.z h))
/-- aviary/subsystems/atmosphere/atmosphere.py:316-319, before the geometric factor -/
def AtmCfg.d2Sos (c : AtmCfg) (h : ℝ) : ℝ :=
  -(1 / 2 * (1 / 2) * (c.K * c.temperature h) ^ (-(3 / 2) : ℝ) * (c.K * c.dT h)) * (c.dT h * c.K) +
    1 / 2 * (c.K * c.temperature h) ^ (-(1 / 2) : ℝ) * c.d2T h * c.K

/-- `partials[TEMPERATURE, ALTITUDE]` etc., aviary/subsystems/atmosphere/atmosphere.py:321-336: multiplied by `dz_dh`. -/
def AtmCfg.jT (c : AtmCfg) (h : ℝ) : ℝ := c.dT h * c.dzDh h
/-- `AtmCfg.jP`: part of the model of aviary/subsystems/atmosphere/atmosphere.py:321-336. -/
def AtmCfg.jP (c : AtmCfg) (h : ℝ) : ℝ := c.dP h * c.dzDh h
/-- `AtmCfg.jRho`: part of the model of aviary/subsystems/atmosphere/atmosphere.py:321-336. -/
def AtmCfg.jRho (c : AtmCfg) (h : ℝ) : ℝ := c.dRho h * c.dzDh h
/-- `AtmCfg.jVisc`: part of the model of aviary/subsystems/atmosphere/atmosphere.py:321-336. -/
def AtmCfg.jVisc (c : AtmCfg) (h : ℝ) : ℝ := c.dVisc h * c.dzDh h
/-- `AtmCfg.jSos`: part of the model of aviary/subsystems/atmosphere/atmosphere.py:321-336. -/
def AtmCfg.jSos (c : AtmCfg) (h : ℝ) : ℝ := c.dSos h * c.dzDh h
/-- `partials['dsos_dh', ALTITUDE]`: multiplied by `dz_dh**2` (aviary/subsystems/atmosphere/atmosphere.py:336). -/
def AtmCfg.jDsos (c : AtmCfg) (h : ℝ) : ℝ := c.d2Sos h * c.dzDh h ^ 2

/-! ### `FlightConditions`, aviary/subsystems/atmosphere/flight_conditions.py:177-252 -/

/-- TAS, EAS, Mach number and dynamic pressure at a node.
Part of the model of aviary/subsystems/atmosphere/flight_conditions.py:184-188. -/
structure Speeds where
  tas : ℝ
  eas : ℝ
  mach : ℝ
  q : ℝ

/-- input is TAS, aviary/subsystems/atmosphere/flight_conditions.py:184-188; `r0` = sea level density. -/
def fcTAS (r0 rho sos tas : ℝ) : Speeds :=
  ⟨tas, tas * (rho / r0) ^ (1 / 2 : ℝ), tas / sos, 1 / 2 * rho * tas ^ 2⟩
/-- input is EAS, aviary/subsystems/atmosphere/flight_conditions.py:190-194 -/
def fcEAS (r0 rho sos eas : ℝ) : Speeds :=
  ⟨eas / (rho / r0) ^ (1 / 2 : ℝ), eas, eas / (rho / r0) ^ (1 / 2 : ℝ) / sos, 1 / 2 * eas ^ 2 * r0⟩
/-- input is Mach, aviary/subsystems/atmosphere/flight_conditions.py:196-200 -/
def fcMach (r0 rho sos mach : ℝ) : Speeds :=
  ⟨sos * mach, sos * mach * (rho / r0) ^ (1 / 2 : ℝ), mach, 1 / 2 * rho * sos ^ 2 * mach ^ 2⟩

/-- `dTAS_dRho`, `dTAS_dEAS`, aviary/subsystems/atmosphere/flight_conditions.py:226-227 -/
def fcDTasRho (r0 rho eas : ℝ) : ℝ := -(1 / 2) * eas * r0 ^ (1 / 2 : ℝ) / rho ^ (3 / 2 : ℝ)
/-- `fcDTasEas`: part of the model of aviary/subsystems/atmosphere/flight_conditions.py:226-227. -/
def fcDTasEas (r0 rho : ℝ) : ℝ := 1 / (rho / r0) ^ (1 / 2 : ℝ)

end
end Verif
