import Mathlib.Data.Int.Log
import Mathlib.Data.Rat.Floor
import Mathlib.Data.Nat.Digits.Defs

/-!
# `round_it`

Models aviary/utils/utils.py:262-297 on rational numbers: strings and NaN, which are returned as they are, are left out,
and `round(x, n)`, `log10` are exact.
-/

namespace Verif

/-- Python's `round(x)`: to the nearest integer, ties to even. Part of the model of aviary/utils/utils.py:287-297. -/
def roundEven (x : ℚ) : ℤ :=
  if x - ⌊x⌋ < 1 / 2 then ⌊x⌋
  else if 1 / 2 < x - ⌊x⌋ then ⌊x⌋ + 1
  else if ⌊x⌋ % 2 = 0 then ⌊x⌋ else ⌊x⌋ + 1

/-- Python's `round(x, n)`. Part of the model of aviary/utils/utils.py:287-297. -/
def pyRound (x : ℚ) (n : ℤ) : ℚ := roundEven (x * 10 ^ n) / 10 ^ n

/-- `len(str(n))` of an integer. Part of the model of aviary/utils/utils.py:287-297. -/
def strLen (n : ℤ) : ℕ := (if n = 0 then 1 else (Nat.digits 10 n.natAbs).length) + (if n < 0 then 1 else 0)

/-- `round_it(x, sig)`, aviary/utils/utils.py:287-297; `int(floor(log10(abs(x))))` is `Int.log 10 |x|`; `sig` 0 or `None` selects the
default. -/
def roundIt (x : ℚ) (sig : ℕ) : ℚ :=
  let s := if sig = 0 then strLen (roundEven x) + 2 else sig
  if x ≠ 0 then pyRound x (s - Int.log 10 |x| - 1) else 0

end Verif
