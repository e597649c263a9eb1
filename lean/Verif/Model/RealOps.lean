import Verif.Model.Options
import Mathlib.Analysis.SpecialFunctions.Pow.Real

/-!
# `exp` and `**` over the real numbers

The instance used by the theorems about `exp_decay`, `nonlin_mod` and the benchmark functions.
`Real.rpow` agrees with Python's `**` for positive bases, and for base 0 with positive exponents;
the other cases are excluded in the model (see `ohNonlinMod`).
-/

namespace PySwarms

/-- `math.exp` (handlers.py:661) and float `**` (handlers.py:756-757) without rounding. -/
noncomputable instance realTransc : Transc ℝ := ⟨Real.exp, fun x y => x ^ y⟩

end PySwarms
