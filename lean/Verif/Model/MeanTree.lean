import Verif.Model.FloatFunctions
import Verif.Model.Ieee

/-!
# `np.mean` of the personal bests in float64

NumPy adds the entries in an order that depends on their number and on the machine, and divides the
sum by the number of entries.  The order is a parameter: a tree whose leaves are the particles.
-/

namespace PySwarms

variable {n : Nat} {K : Type} [Field K] [LinearOrder K]

/-- The sum of the costs in the order `t`, every addition rounded (the sum in `np.mean` of
global_best.py:220 and the same lines of the other classes). -/
def treeSumX (A : Fpu K) (c : Costs n K) : Fl.SumTree n → XR K
  | .zero => .fin 0
  | .leaf i => c i
  | .node a b => A.add (treeSumX A c a) (treeSumX A c b)

/-- `np.mean(self.swarm.pbest_cost)` (global_best.py:220, local_best.py:248,
general_optimizer.py:260, binary.py:212) with additions in the order `t`. -/
def treeMeanX (A : Fpu K) (t : Fl.SumTree n) (c : Costs n K) : XR K :=
  A.div (treeSumX A c t) (.fin n)

end PySwarms
