import Verif.Model.Heap
import Verif.Spec

/-!
# Specification vocabulary for the model with array identity
-/

namespace PySwarms.Mem

variable {n d : Nat} {K : Type}

/-- The objective does not write into its argument. -/
def Pure (ev : WritingObjective n d K) : Prop := ∀ k x, (ev k x).2 = x

/-- The results of the objective. -/
def results (ev : WritingObjective n d K) : Nat → Mat n d K → Except Err (Costs n K) :=
  fun k x => (ev k x).1

/-- The call as an operation of the model without array identity. -/
def Call.op : Call n d K → Op n d K
  | .optimize ev iters nproc env => .optimize (results ev) iters nproc env
  | .reset r => .reset r

/-- The objective of the call does not write into the optimizer's array: it runs in other processes,
or it does not write at all. -/
def Call.Harmless : Call n d K → Prop
  | .optimize ev _ nproc _ => nproc ≠ none ∨ Pure ev
  | .reset _ => True

/-- The array `a` exists in `h` and has the same contents in `h'`. -/
def Kept (h h' : Heap n d K) (a : Nat) : Prop := a < h.next ∧ h'.get a = h.get a

end PySwarms.Mem
