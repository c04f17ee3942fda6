import Verif.Model.Atmosphere
import Mathlib.Data.Rat.Cast.Order

/-!
# The shipped atmosphere tables as exact decimal data

`aviary/subsystems/atmosphere/data/*.py` hold, for each atmosphere, the table altitudes
(`atm_data.alt`) and four tables of cubic coefficients (`akima_T`, `akima_P`, `akima_rho`,
`akima_dT`), one row per altitude bin. The modules `Verif.Data.*` hold the same numbers as integers
together with a decimal exponent per column, so every value is the exact decimal literal of the source
(the rounding of the literal to the nearest double is not modelled).
-/

namespace Verif

/-- One row of a coefficient table, scaled to integers.
Part of the model of aviary/subsystems/atmosphere/atmosphere.py:201-250. -/
structure IRow where
  a : ℤ
  b : ℤ
  c : ℤ
  d : ℤ
  deriving DecidableEq, Inhabited, Repr

/-- A coefficient table: the value of a column entry is the integer divided by `10 ^ exponent`.
Part of the model of aviary/subsystems/atmosphere/atmosphere.py:201-250. -/
structure CTab where
  ea : ℕ
  eb : ℕ
  ec : ℕ
  ed : ℕ
  rows : List IRow

/-- A data file: altitudes (metres, divided by `10 ^ ealt`), the four tables and the raw data
`(temperature, pressure, density)` at the table altitudes with their exponents.
Part of the model of aviary/subsystems/atmosphere/atmosphere.py:201-250. -/
structure AtmData where
  ealt : ℕ
  alt : List ℤ
  T : CTab
  P : CTab
  rho : CTab
  dT : CTab

/-- Real value of an integer with a decimal exponent.
Part of the model of aviary/subsystems/atmosphere/atmosphere.py:201-250. -/
noncomputable def dec (m : ℤ) (e : ℕ) : ℝ := (m : ℝ) / 10 ^ e

/-- The row as real coefficients. Part of the model of aviary/subsystems/atmosphere/atmosphere.py:201-250. -/
noncomputable def CTab.cubic (t : CTab) (r : IRow) : Cubic :=
  ⟨dec r.a t.ea, dec r.b t.eb, dec r.c t.ec, dec r.d t.ed⟩

/-- The table as used by `aviary/subsystems/atmosphere/atmosphere.py` (`coeffs = akima_X[idx]`). -/
noncomputable def CTab.lookup (t : CTab) (i : ℕ) : Cubic := t.cubic (t.rows.getD i default)

/-- The data file as the `source_data` of the component model.
Part of the model of aviary/subsystems/atmosphere/atmosphere.py:201-250. -/
noncomputable def AtmData.table (D : AtmData) : AtmTable :=
  ⟨D.alt.map (dec · D.ealt), D.T.lookup, D.P.lookup, D.rho.lookup, D.dT.lookup⟩

/-- The sea-level row of `get_atmosphere_data` (aviary/subsystems/atmosphere/utils/get_atmosphere_data.py:66-68):
`np.argwhere(altitudes == 0.0)[0][0] + 1`; `none` is the `IndexError` when no altitude is zero. -/
def AtmData.seaLevelRow (D : AtmData) : Option ℕ := (D.alt.findIdx? (· == 0)).map (· + 1)

/-- `sea_level_density`, aviary/subsystems/atmosphere/utils/get_atmosphere_data.py:69: column 0 of that row. -/
noncomputable def AtmData.seaLevelDensity (D : AtmData) : Option ℝ :=
  D.seaLevelRow.map (fun i => (D.rho.lookup i).a)

end Verif
