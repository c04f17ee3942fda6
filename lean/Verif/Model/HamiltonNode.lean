import Verif.Model.HamiltonStandard
import Verif.Data.Propeller
import Mathlib.Data.Rat.Cast.Defs

/-!
# Thrust coefficient of the propeller

Models one node of `HamiltonStandard.compute` (aviary/subsystems/propulsion/propeller/hamilton_standard.py:632-941), with the tables of the
source. Numbers are an ordered field; messages and extrapolation counters are left out.
-/

namespace Verif.HS

variable {α : Type} [Field α] [LinearOrder α]

/-- A table row as an array. Part of the model of aviary/subsystems/propulsion/propeller/hamilton_standard.py:632-941. -/
def arr (l : List ℚ) : ℕ → α := fun i => ((l.getD i 0 : ℚ) : α)

/-- Row `i` of a table. Part of the model of aviary/subsystems/propulsion/propeller/hamilton_standard.py:632-941. -/
def row (t : List (List ℚ)) (i : ℕ) : List ℚ := t.getD i []

/-- Row `(i, j)` of a table. Part of the model of aviary/subsystems/propulsion/propeller/hamilton_standard.py:632-941. -/
def row3 (t : List (List (List ℚ))) (i j : ℕ) : List ℚ := (t.getD i []).getD j []

/-- `_unint` on the first `n` abscissae, value only.
Part of the model of aviary/subsystems/propulsion/propeller/hamilton_standard.py:632-941. -/
def look (n : ℕ) (xs ys : List ℚ) (x : α) : α := (unint n (arr xs) (arr ys) x).1

/-- Inputs of one node, aviary/subsystems/propulsion/propeller/hamilton_standard.py:634-639. -/
structure HSIn (α : Type) where
  act : α
  cli : α
  adv : α
  cp : α
  mach : α
  tipMach : α

/-- Activity factor adjustments, aviary/subsystems/propulsion/propeller/hamilton_standard.py:687-691. -/
def afCP (i : HSIn α) (k : ℕ) : α := look 6 Tab.actFactor (row Tab.afcpc (min k 1)) i.act

/-- See `afCP`. Part of the model of aviary/subsystems/propulsion/propeller/hamilton_standard.py:632-941. -/
def afCT (i : HSIn α) (k : ℕ) : α := look 6 Tab.actFactor (row Tab.afctc (min k 1)) i.act

/-- `AFCTE`, aviary/subsystems/propulsion/propeller/hamilton_standard.py:693-696. -/
def afcte (i : HSIn α) : α :=
  if i.adv ≤ 1 / 2 then 2 * i.adv * (afCT i 1 - afCT i 0) + afCT i 0 else afCT i 1

/-- `J_begin`, aviary/subsystems/propulsion/propeller/hamilton_standard.py:699-710; `J_end = J_begin + 3`. -/
def jBegin (adv : α) : ℕ := if adv ≤ 1 then 0 else if adv ≤ 3 / 2 then 1 else if adv ≤ 2 then 2 else 3

/-- Row of `CL_arr` within 0.0009 of the design lift coefficient, aviary/subsystems/propulsion/propeller/hamilton_standard.py:719-723. -/
def clNear (cli : α) : Option ℕ := (List.range 6).find? (fun k => decide (|cli - arr Tab.clArr k| ≤ 9 / 10000))

/-- `CL_tab_idx_begin` off the rows, aviary/subsystems/propulsion/propeller/hamilton_standard.py:724-733. -/
def clBegin (cli : α) : ℕ := if cli ≤ 6 / 10 then 0 else if cli ≤ 7 / 10 then 1 else 2

/-- Value at the design lift coefficient of a quantity given per row: the row itself if near one, else interpolation over four rows,
aviary/subsystems/propulsion/propeller/hamilton_standard.py:788-797, 882-895. -/
def overCl (cli : α) (f : ℕ → α) : α :=
  match clNear cli with
  | some k => f k
  | none => (unint 4 (fun m => arr Tab.clArr (clBegin cli + m)) (fun m => f (clBegin cli + m)) cli).1

/-- Argument raised to the first table entry, aviary/subsystems/propulsion/propeller/hamilton_standard.py:758-760, 838-840. -/
def floorAt (first x : α) : α := if x < first then first else x

/-- Baseline thrust coefficient at advance ratio `kdx`, aviary/subsystems/propulsion/propeller/hamilton_standard.py:753-814. -/
def ctt (i : HSIn α) (b kdx : ℕ) : α :=
  let cpEff := i.cp * afCP i kdx
  let pbl := look 14 Tab.cpec (row Tab.blP b) cpEff
  let cpe1 := cpEff * pbl * arr Tab.pfCli kdx
  let px := fun r => look (Tab.cliLen.getD r 0) (row Tab.cpCli r) (row Tab.xpcli r) (floorAt (arr (row Tab.cpCli r) 0) cpe1)
  let n := Tab.angLen.getD kdx 0
  let bll := look n (row3 Tab.cpAngle b kdx) (row Tab.bladeAngle kdx) (cpEff * overCl i.cli px)
  look n (row Tab.bladeAngle kdx) (row3 Tab.ctAngle b kdx) bll

/-- `CTTT[ibb]` before the adjustment, aviary/subsystems/propulsion/propeller/hamilton_standard.py:824-828. -/
def cttt (i : HSIn α) (b : ℕ) : α :=
  (unint 4 (fun m => arr Tab.advArr (jBegin i.adv + m)) (fun m => ctt i b (jBegin i.adv + m)) i.adv).1

/-- `TBL`, aviary/subsystems/propulsion/propeller/hamilton_standard.py:843. -/
def tbl (i : HSIn α) (b : ℕ) (ct : α) : α := look 14 Tab.ctec (row Tab.blT b) (ct * afcte i)

/-- `TXCLI[r]`, aviary/subsystems/propulsion/propeller/hamilton_standard.py:841-855. The slice `[:cli_len]` of rows with 14 entries keeps at most 14. -/
def tx (i : HSIn α) (b : ℕ) (ct : α) (r : ℕ) : α :=
  let cte1 := ct * afcte i * tbl i b ct * look 7 Tab.advArr Tab.tfCli i.adv
  look (min (Tab.cliLen.getD r 0) 14) (row Tab.ctCli r) (row Tab.xtcli r) (floorAt (arr (row Tab.ctCli r) 0) cte1)

/-- `CT_Eff - CTTT[ibb]`, aviary/subsystems/propulsion/propeller/hamilton_standard.py:897-898. -/
def resid (i : HSIn α) (b : ℕ) (ct : α) : α := ct * afcte i * overCl i.cli (tx i b ct) - cttt i b

/-- `DMN`, aviary/subsystems/propulsion/propeller/hamilton_standard.py:863-872. -/
def dmn (i : HSIn α) (r : ℕ) : α :=
  if i.adv ≠ 0 then i.mach - look 11 Tab.advArr2 (row Tab.machCorr r) i.adv else i.tipMach - arr Tab.machTip r

/-- Compressibility tip loss factor, aviary/subsystems/propulsion/propeller/hamilton_standard.py:873-876, 890-895. -/
def tipLoss (i : HSIn α) (b : ℕ) (ct : α) : α :=
  overCl i.cli (fun r => if 0 < dmn i r then (biquad (arr Tab.compMach) 1 9 12 (dmn i r) (ct * afcte i * tx i b ct r * tbl i b ct)).1 else 1)

/-- Errors of the component: `IndexError`, `ValueError`, or floating point division by zero.
Part of the model of aviary/subsystems/propulsion/propeller/hamilton_standard.py:632-941. -/
inductive HSErr
  | index | value | nan
  deriving DecidableEq

/-- One pass of the loop over blade tables, aviary/subsystems/propulsion/propeller/hamilton_standard.py:747-920: thrust coefficient and tip loss factor. -/
def bladeRow (i : HSIn α) (b : ℕ) : Except HSErr (α × α) :=
  match findCt (resid i b) (cttt i b) with
  | .found ct => .ok (ct, tipLoss i b ct)
  | .zero last => .ok (0, tipLoss i b last)
  | .notConverged => .error .value
  | .nan => .error .nan

/-- One node, aviary/subsystems/propulsion/propeller/hamilton_standard.py:734-941. An even number of blades selects one table, an odd number interpolates over all four; index -1 of an array is its last row. -/
def hsNode (blades : ℕ) (i : HSIn α) : Except HSErr (α × α) :=
  if blades % 2 = 0 then
    if blades = 0 then bladeRow i 3
    else if blades / 2 - 1 < 4 then bladeRow i (blades / 2 - 1)
    else .error .index
  else
    match bladeRow i 0, bladeRow i 1, bladeRow i 2, bladeRow i 3 with
    | .ok r0, .ok r1, .ok r2, .ok r3 =>
      .ok ((unint 4 (arr Tab.bladesArr) (fun m => ([r0.1, r1.1, r2.1, r3.1] : List α).getD m 0) (blades : α)).1,
           (unint 4 (arr Tab.bladesArr) (fun m => ([r0.2, r1.2, r2.2, r3.2] : List α).getD m 0) (blades : α)).1)
    | .error e, _, _, _ => .error e
    | _, .error e, _, _ => .error e
    | _, _, .error e, _ => .error e
    | _, _, _, .error e => .error e

end Verif.HS
