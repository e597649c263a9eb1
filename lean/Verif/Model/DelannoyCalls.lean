import Verif.Model.Topology

/-!
# The recursion of `VonNeumann.delannoy`, counting its calls
-/

namespace PySwarms

/-- `VonNeumann.delannoy` (von_neumann.py:53-80) with the number of calls of the function, the outer one
included. -/
def delannoyCount : Nat → Nat → Nat × Nat
  | 0, _ => (1, 1)
  | _ + 1, 0 => (1, 1)
  | d + 1, r + 1 =>
    let a := delannoyCount d (r + 1)
    let b := delannoyCount d r
    let c := delannoyCount (d + 1) r
    (a.1 + b.1 + c.1, 1 + a.2 + b.2 + c.2)
termination_by d r => d + r

end PySwarms
