import Verif.Basic
import Mathlib.Algebra.Field.Basic
import Mathlib.Algebra.Order.Group.Unbundled.Abs
import Mathlib.Data.Rat.Cast.Defs

/-!
# The benchmark functions in floating point

The entry that a function of utils/functions/single_obj.py returns for one particle, with every
arithmetic operation rounded.  The particle is a row of the argument; the checks of dimension and
range are exact comparisons and are those of `Model/Functions.lean`.  `x ** 2`, `x ** 2.0` is
`np.square`, one rounded multiplication; higher powers, `np.exp`, `np.sin`, … are functions of the
C library about which only what is written in a theorem is known.  NumPy's `sum` adds in an order
of its own: the order is an argument.  Overflow does not occur in the ranges the functions accept;
for `sphere` and `rosenbrock`, which accept everything, it is left out.  The rounding `fl` is an
argument too: `f64`, any other rounding, or none.
-/

namespace PySwarms.Fl

variable {d : Nat} {K : Type}

/-- The functions of NumPy and the C library: `np.pi`, `np.sin`, `np.cos`, `np.exp`, `np.sqrt`,
`x ** k` for `k > 2` (single_obj.py:69-74, 116, 250-257, 557-562, 625, 693-696, 762). -/
structure Libm (K : Type) where
  pi : K
  sin : K → K
  cos : K → K
  exp : K → K
  sqrt : K → K
  pow : K → ℕ → K

/-- An order of adding `d` numbers: a tree with the positions as leaves (`sum`, e.g.
single_obj.py:70, 649, 717).  `zero` is the empty sum. -/
inductive SumTree (d : Nat) where
  | zero
  | leaf (j : Fin d)
  | node (a b : SumTree d)

variable [Field K] [LinearOrder K]

/-- The sum in the given order, each addition rounded (e.g. single_obj.py:70, 649, 717). -/
def SumTree.sum (fl : K → K) (v : Fin d → K) : SumTree d → K
  | .zero => 0
  | .leaf j => v j
  | .node a b => fl (a.sum fl v + b.sum fl v)

/-- The positions in the order in which they are added (e.g. single_obj.py:70). -/
def SumTree.leaves : SumTree d → List (Fin d)
  | .zero => []
  | .leaf j => [j]
  | .node a b => a.leaves ++ b.leaves

/-- `np.square(a)` (e.g. single_obj.py:152). -/
def sq (fl : K → K) (a : K) : K := fl (a * a)

/-- `ackley` (single_obj.py:69-74): `d ≠ 0`; `t1`, `t2` are the orders of the two sums. -/
def ackley (fl : K → K) (L : Libm K) (t1 t2 : SumTree d) (x : Vec d K) : K :=
  let a := L.exp (fl (fl (-0.2) * L.sqrt (fl (fl (1 / d) * t1.sum fl fun j => sq fl (x j)))))
  let b := L.exp (fl (fl (1 / d) * t2.sum fl fun j => L.cos (fl (fl (2 * L.pi) * x j))))
  fl (fl (fl (fl (-20 * a) - b) + 20) + L.exp 1)

/-- `beale` (single_obj.py:113-117) -/
def beale (fl : K → K) (L : Libm K) (x y : K) : K :=
  fl (fl (sq fl (fl (fl (1.5 - x) + fl (x * y)))
    + sq fl (fl (fl (2.25 - x) + fl (x * sq fl y))))
    + sq fl (fl (fl (2.625 - x) + fl (x * L.pow y 3))))

/-- `booth` (single_obj.py:154) -/
def booth (fl : K → K) (x y : K) : K :=
  fl (sq fl (fl (fl (x + fl (2 * y)) - 7)) + sq fl (fl (fl (fl (2 * x) + y) - 5)))

/-- `bukin6` (single_obj.py:201-203) -/
def bukin6 (fl : K → K) (L : Libm K) (x y : K) : K :=
  fl (fl (100 * L.sqrt |fl (y - fl (fl 0.01 * sq fl x))|) + fl (fl 0.01 * |fl (x + 10)|))

/-- `easom` (single_obj.py:300-305) -/
def easom (fl : K → K) (L : Libm K) (x y : K) : K :=
  fl (fl (fl (-1 * L.cos x) * L.cos y)
    * L.exp (fl (-1 * fl (sq fl (fl (x - L.pi)) + sq fl (fl (y - L.pi))))))

/-- `goldstein` (single_obj.py:395-417) -/
def goldstein (fl : K → K) (x y : K) : K :=
  let p := fl (fl (fl (fl (fl (19 - fl (14 * x)) + fl (3 * sq fl x)) - fl (14 * y))
    + fl (fl (6 * x) * y)) + fl (3 * sq fl y))
  let q := fl (fl (fl (fl (fl (18 - fl (32 * x)) + fl (12 * sq fl x)) + fl (48 * y))
    - fl (fl (36 * x) * y)) + fl (27 * sq fl y))
  fl (fl (1 + fl (sq fl (fl (fl (x + y) + 1)) * p))
    * fl (30 + fl (sq fl (fl (fl (2 * x) - fl (3 * y))) * q)))

/-- `himmelblau` (single_obj.py:463) -/
def himmelblau (fl : K → K) (x y : K) : K :=
  fl (sq fl (fl (fl (sq fl x + y) - 11)) + sq fl (fl (fl (x + sq fl y) - 7)))

/-- `levi` (single_obj.py:549-562); the last column is masked in the sums, so that each of them is
the entry of the first column. -/
def levi (fl : K → K) (L : Libm K) (x y : K) : K :=
  let w := fun t => fl (1 + fl (fl (t - 1) / 4))
  fl (fl (sq fl (L.sin (fl (L.pi * w x)))
    + fl (sq fl (fl (x - 1))
      * fl (1 + fl (10 * sq fl (L.sin (fl (fl (L.pi * w x) + 1)))))))
    + fl (sq fl (fl (w y - 1)) * fl (1 + sq fl (L.sin (fl (fl (2 * L.pi) * w y))))))

/-- `matyas` (single_obj.py:592) -/
def matyas (fl : K → K) (x y : K) : K :=
  fl (fl (fl 0.26 * fl (sq fl x + sq fl y)) - fl (fl (fl 0.48 * x) * y))

/-- `rastrigin` (single_obj.py:624-625) -/
def rastrigin (fl : K → K) (L : Libm K) (t : SumTree d) (x : Vec d K) : K :=
  fl (fl (10 * d)
    + t.sum fl fun j => fl (sq fl (x j) - fl (10 * L.cos (fl (fl (2 * L.pi) * x j)))))

/-- `rosenbrock` (single_obj.py:649-651) -/
def rosenbrock (fl : K → K) (t : SumTree (d - 1)) (x : Vec d K) : K :=
  t.sum fl fun j =>
    fl (fl (100 * sq fl (fl (x ⟨j.1 + 1, by omega⟩ - sq fl (x ⟨j.1, by omega⟩))))
      + sq fl (fl (1 - x ⟨j.1, by omega⟩)))

/-- `schaffer2` (single_obj.py:693-696) -/
def schaffer2 (fl : K → K) (L : Libm K) (x y : K) : K :=
  fl (0.5 + fl (fl (sq fl (L.sin (fl (sq fl x - sq fl y))) - 0.5)
    / sq fl (fl (1 + fl (fl 0.001 * fl (sq fl x + sq fl y))))))

/-- `sphere` (single_obj.py:717) -/
def sphere (fl : K → K) (t : SumTree d) (x : Vec d K) : K := t.sum fl fun j => sq fl (x j)

/-- `threehump` (single_obj.py:762) -/
def threehump (fl : K → K) (L : Libm K) (x y : K) : K :=
  fl (fl (fl (fl (fl (2 * sq fl x) - fl (fl 1.05 * L.pow x 4)) + fl (L.pow x 6 / 6)) + fl (x * y))
    + sq fl y)

end PySwarms.Fl
