import Verif.Data.MetaTable
import Mathlib.Data.List.Infix

/-!
# Dimensions of unit expressions and words of variable names

Unit strings are the ones OpenMDAO accepts: products and quotients of named units and whole numbers with whole powers.
-/

namespace Verif.MetaTable

/-- Powers of mass, length, time, temperature and angle, of the units of aviary/variable_info/variable_meta_data.py:1-7828. -/
structure Dim where
  mass : Int
  length : Int
  time : Int
  temp : Int
  angle : Int
  deriving DecidableEq, Repr

/-- Product of `d` and the `n`-th power of `e`, for the units of aviary/variable_info/variable_meta_data.py:1-7828. -/
def Dim.mulPow (d : Dim) (n : Int) (e : Dim) : Dim :=
  ⟨d.mass + n * e.mass, d.length + n * e.length, d.time + n * e.time, d.temp + n * e.temp, d.angle + n * e.angle⟩

/-- No dimension (`unitless`), aviary/variable_info/variable_meta_data.py:1-7828. -/
def Dim.one : Dim := ⟨0, 0, 0, 0, 0⟩

/-- Token of a unit string of aviary/variable_info/variable_meta_data.py:1-7828. -/
inductive Tok | atom (s : Text) | mul | div | pow
  deriving DecidableEq, Repr

/-- Tokens of a unit string; `**` (codes 42 42) is one token, 47 is the slash.  Units of
aviary/variable_info/variable_meta_data.py:1-7828. -/
def tokens : Text → Text → List Tok
  | [], [] => []
  | cur, [] => [.atom cur]
  | cur, 42 :: 42 :: r => (if cur = [] then [] else [.atom cur]) ++ .pow :: tokens [] r
  | cur, 42 :: r => (if cur = [] then [] else [.atom cur]) ++ .mul :: tokens [] r
  | cur, 47 :: r => (if cur = [] then [] else [.atom cur]) ++ .div :: tokens [] r
  | cur, c :: r => tokens (cur ++ [c]) r

/-- Dimensions of the named units that occur in aviary/variable_info/variable_meta_data.py:1-7828 and in the calls of
aviary/variable_info/functions.py:22-277; plain numbers have none. -/
def base (s : Text) : Option Dim :=
  if s ∈ [t!"1", t!"2", t!"3", t!"unitless"] then some .one
  else if s ∈ [t!"lbm", t!"kg", t!"slug"] then some ⟨1, 0, 0, 0, 0⟩
  else if s ∈ [t!"ft", t!"inch", t!"NM", t!"m", t!"mi"] then some ⟨0, 1, 0, 0, 0⟩
  else if s ∈ [t!"s", t!"min", t!"h"] then some ⟨0, 0, 1, 0, 0⟩
  else if s ∈ [t!"degR", t!"degK"] then some ⟨0, 0, 0, 1, 0⟩
  else if s ∈ [t!"deg", t!"rad"] then some ⟨0, 0, 0, 0, 1⟩
  else if s ∈ [t!"lbf", t!"N"] then some ⟨1, 1, -2, 0, 0⟩
  else if s ∈ [t!"hp", t!"kW", t!"W"] then some ⟨1, 2, -3, 0, 0⟩
  else if s ∈ [t!"kJ"] then some ⟨1, 2, -2, 0, 0⟩
  else if s ∈ [t!"L", t!"galUS"] then some ⟨0, 3, 0, 0, 0⟩
  else if s ∈ [t!"psi", t!"psf"] then some ⟨1, -1, -2, 0, 0⟩
  else if s ∈ [t!"kn"] then some ⟨0, 1, -1, 0, 0⟩
  else if s ∈ [t!"rpm"] then some ⟨0, 0, -1, 0, 1⟩
  else none

/-- A power written as one digit, as in aviary/variable_info/variable_meta_data.py:1-7828. -/
def digit : Text → Option Int
  | [c] => if 48 ≤ c ∧ c ≤ 57 then some ((c - 48 : ℕ) : Int) else none
  | _ => none

/-- Value of a token list from left to right; `sg` is the sign of the next factor.  Units of
aviary/variable_info/variable_meta_data.py:1-7828. -/
def evalToks : Dim → Int → List Tok → Option Dim
  | d, sg, [.atom a] => (base a).map (d.mulPow sg)
  | d, sg, [.atom a, .pow, .atom n] => match base a, digit n with
    | some e, some k => some (d.mulPow (sg * k) e)
    | _, _ => none
  | d, sg, .atom a :: .pow :: .atom n :: .mul :: r => match base a, digit n with
    | some e, some k => evalToks (d.mulPow (sg * k) e) 1 r
    | _, _ => none
  | d, sg, .atom a :: .pow :: .atom n :: .div :: r => match base a, digit n with
    | some e, some k => evalToks (d.mulPow (sg * k) e) (-1) r
    | _, _ => none
  | d, sg, .atom a :: .mul :: r => match base a with
    | some e => evalToks (d.mulPow sg e) 1 r
    | none => none
  | d, sg, .atom a :: .div :: r => match base a with
    | some e => evalToks (d.mulPow sg e) (-1) r
    | none => none
  | _, _, _ => none

/-- Dimension of a unit string of aviary/variable_info/variable_meta_data.py:1-7828. -/
def dims (u : Text) : Option Dim := evalToks .one 1 (tokens [] u)

/-- Split a name of aviary/variable_info/variables.py:1-783 at a separator. -/
def splitAt (c : ℕ) : Text → Text → List (Text)
  | cur, [] => [cur]
  | cur, x :: r => if x = c then cur :: splitAt c [] r else splitAt c (cur ++ [x]) r

/-- The words of the last part of a variable name of aviary/variable_info/variables.py:1-783. -/
def words (n : Text) : List (Text) := splitAt 95 [] ((splitAt 58 [] n).getLast?.getD [])

end Verif.MetaTable
