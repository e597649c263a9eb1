import Mathlib.Data.Int.Log
import Mathlib.Data.Rat.Floor
import Mathlib.Algebra.Order.Ring.Rat

/-!
# Binary64 rounding

NumPy's float64 arithmetic: every `+`, `-`, `*`, `/` returns the exact result rounded to the nearest
IEEE 754 binary64 number, ties to even.  Doubles are rational numbers, so rounding is a function on
`ℚ`.  Subnormal numbers are included; overflow is not (a result of absolute value at least `2^1024`
would be `inf`), nor are signed zeros.
-/

namespace PySwarms

/-- Round a rational to the nearest integer, ties to even (no code of its own: IEEE 754 rounding,
used by every arithmetic operation of operators.py:126-143 and handlers.py:146-546). -/
def roundEven (y : ℚ) : ℤ :=
  if y - ⌊y⌋ < 1 / 2 then ⌊y⌋
  else if 1 / 2 < y - ⌊y⌋ then ⌊y⌋ + 1
  else if ⌊y⌋ % 2 = 0 then ⌊y⌋ else ⌊y⌋ + 1

/-- The exponent of the last place of the doubles next to `x > 0`: 53 significant bits, at least
`2^-1074` (IEEE 754, as `roundEven`). -/
def lastPlace (x : ℚ) : ℤ := max (Int.log 2 x - 52) (-1074)

/-- Rounding of a nonnegative number (IEEE 754, as `roundEven`). -/
def f64pos (x : ℚ) : ℚ := roundEven (x / 2 ^ lastPlace x) * 2 ^ lastPlace x

/-- Rounding to the nearest binary64 number, ties to even (IEEE 754, as `roundEven`). -/
def f64 (x : ℚ) : ℚ := if x < 0 then -f64pos (-x) else f64pos x

/-- The binary64 numbers (without the upper limit of the exponent): integer multiples `m * 2^e`
with `|m| ≤ 2^53` and `e ≥ -1074` (IEEE 754, the float64 entries of the arrays of
swarms.py:84-106). -/
def IsDouble (x : ℚ) : Prop := ∃ m e : ℤ, |m| ≤ 2 ^ 53 ∧ -1074 ≤ e ∧ x = m * 2 ^ e

/-- The values of `np.random.random_sample()`: `k / 2^53` with `0 ≤ k < 2^53`
(generators.py:70-83, 172; operators.py:134, 139; handlers.py:300, 307; binary.py:265). -/
def IsSample (u : ℚ) : Prop := ∃ k : ℕ, k < 2 ^ 53 ∧ u = k / 2 ^ 53

end PySwarms
