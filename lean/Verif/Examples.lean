import Verif.Spec
import Mathlib.Data.Rat.Floor
import Mathlib.Tactic.NormNum

/-!
# Concrete instances used by the non-vacuity examples and the witnesses

Everything here is over `ℚ`, so that runs can be evaluated by the kernel.
-/

namespace PySwarms.Ex

/-- A stand-in for `exp` and `**` on `ℚ`; only used so that the optimizers can be instantiated
over `ℚ` in examples that never call them (no theorem is about it). -/
instance ratTransc : Transc ℚ := ⟨fun x => 1 + x, fun x _ => x⟩

/-- A fixed draw: every uniform sample is `1/2`. -/
def draw (n d : Nat) : Draw n d ℚ where
  r1 := fun _ _ => 1 / 2
  r2 := fun _ _ => 1 / 2
  bh := ⟨fun _ => 1 / 2, fun _ => 1 / 4, 8⟩
  oracle := {
    knn := fun k _ _ i => (i :: (List.finRange n).filter (· ≠ i)).take k
    delaunay := fun _ => .ok fun i => (List.finRange n).filter (· ≠ i)
    choice := fun k i => ((List.finRange n).filter (· ≠ i)).take k }
  oh := fun _ => 1 / 2
  thr := fun _ => 1 / 2

theorem draw_legal (n d : Nat) : (draw n d).Legal := by
  refine ⟨fun _ _ => ?_, fun _ _ => ?_, ⟨fun _ => ?_, fun _ => ?_⟩, fun _ => ?_, fun _ => ?_⟩
  all_goals (try unfold Unit01); simp only [draw]; constructor <;> norm_num

/-- Initial draw: particle `i` starts at `i + 1` (through `center`), velocity `1/2`. -/
def init (n d : Nat) : InitDraw n d ℚ where
  pos := fun i _ => ((i : Nat) : ℚ) / 4
  bits := fun i j => decide ((i : Nat) = (j : Nat))
  argsort := fun _ j => j
  vel := fun _ _ => 1 / 2

/-- Options `{c1: 1/2, c2: 1/3, w: 1/2}`. -/
def opts : Opts ℚ := [("c1", 1 / 2), ("c2", 1 / 3), ("w", 1 / 2)]

/-- A `GlobalBestPSO` configuration. -/
def gcfg (n d : Nat) : Config n d ℚ where
  kind := .globalBest
  options := opts
  center := fun _ => 4

/-- A `LocalBestPSO` configuration with `k` neighbours. -/
def rcfg (n d : Nat) (st : Bool) (k : Nat) : Config n d ℚ where
  kind := .localBest st
  options := opts
  args := { k := some k, p := some 2 }
  center := fun _ => 4

/-- A `BinaryPSO` configuration with `k` neighbours. -/
def bcfg (n d : Nat) (k : Nat) : Config n d ℚ where
  kind := .binary
  options := opts
  args := { k := some k, p := some 2 }
  center := fun _ => 1

/-- The sphere function `Σ x²`. -/
def sphere (n d : Nat) : Nat → Mat n d ℚ → Except Err (Costs n ℚ) := fun _ x =>
  .ok fun i => .fin (((List.finRange d).map fun j => x i j * x i j).sum)

/-- An objective that changes with the iteration: `x + 5 * iteration`. -/
def drift (n : Nat) : Nat → Mat n 1 ℚ → Except Err (Costs n ℚ) := fun k x =>
  .ok fun i => .fin (x i 0 + 5 * k)

end PySwarms.Ex
