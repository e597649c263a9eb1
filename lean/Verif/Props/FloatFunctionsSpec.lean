import Verif.Model.FloatFunctions
import Mathlib.Analysis.SpecialFunctions.Trigonometric.Basic
import Mathlib.Analysis.SpecialFunctions.Pow.Real

/-! # C113: roundings, orders of summation and the C library -/

set_option linter.unusedSectionVars false

namespace PySwarms.Fl

variable {d : Nat}

/-! ## Specification -/

/-- A rounding: monotone, and `0` is a floating-point number.  Nothing else is assumed about the
format or the direction. -/
def Rounding (fl : ℚ → ℚ) : Prop := Monotone fl ∧ fl 0 = 0

/-- Every number is added once, in some order. -/
def SumTree.Full (t : SumTree d) : Prop := t.leaves.Perm (List.finRange d)

/-- The double nearest to Euler's number, 2.718281828459045. -/
def e64 : ℚ := 6121026514868073 / 2 ^ 51

/-- What is assumed about the C library: the values at `0` and of `exp(1)` and `0.5 ** 3` are
correctly rounded, sines and cosines are at most 1 in absolute value, `exp` is monotone and not
negative, and so is the square root. -/
structure Libm.Sane (L : Libm ℚ) : Prop where
  sin_le : ∀ t, |L.sin t| ≤ 1
  cos_le : ∀ t, |L.cos t| ≤ 1
  sin_zero : L.sin 0 = 0
  cos_zero : L.cos 0 = 1
  exp_mono : Monotone L.exp
  exp_nonneg : ∀ t, 0 ≤ L.exp t
  exp_zero : L.exp 0 = 1
  exp_one : L.exp 1 = e64
  sqrt_nonneg : ∀ t, 0 ≤ L.sqrt t
  sqrt_zero : L.sqrt 0 = 0
  pow_zero : ∀ k, L.pow 0 (k + 1) = 0
  pow_half : L.pow (1 / 2) 3 = 1 / 8

/-- The exact functions. -/
noncomputable def realLib : Libm ℝ where
  pi := Real.pi
  sin := Real.sin
  cos := Real.cos
  exp := Real.exp
  sqrt := Real.sqrt
  pow x k := x ^ k

end PySwarms.Fl
