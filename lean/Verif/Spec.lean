import Verif.Model.Optimizer

/-!
# Specification vocabulary

Small definitions used in the statements of the property theorems.  They speak about
evaluation logs (lists of `(positions, costs)` pairs in the order of evaluation), positions
and bounds only.
-/

namespace PySwarms

variable {n d : Nat} {K : Type}

/-- The evaluations of particle `i` alone, oldest first. -/
def particleLog (E : List (Mat n d K × Costs n K)) (i : Fin n) : List (Vec d K × XR K) :=
  E.map fun e => (e.1 i, e.2 i)

/-- `(x, c)` is the *first* entry of the log whose cost is the smallest, and that cost is below
`+inf`. -/
def IsFirstBest [LT K] [DecidableLT K] (log : List (Vec d K × XR K)) (x : Vec d K) (c : XR K) :
    Prop :=
  ∃ pre post, log = pre ++ (x, c) :: post ∧ XR.lt c XR.pinf = true ∧
    (∀ e ∈ pre, e.2 = XR.nan ∨ XR.lt c e.2 = true) ∧
    (∀ e ∈ post, e.2 = XR.nan ∨ XR.lt e.2 c = false)

/-- Nothing in the log is below `+inf`. -/
def NothingBelowInf (log : List (Vec d K × XR K)) : Prop :=
  ∀ e ∈ log, e.2 = XR.nan ∨ e.2 = XR.pinf

/-- The personal best `(x, c)` of a particle that has been evaluated according to `log`, where
`old` is the position kept as long as nothing below `+inf` has been seen. -/
def IsPersonalBest [LT K] [DecidableLT K] (log : List (Vec d K × XR K)) (old x : Vec d K)
    (c : XR K) : Prop :=
  (NothingBelowInf log ∧ c = XR.pinf ∧ x = old) ∨ IsFirstBest log x c

/-- The log `E` is what the objective `ev` returned: its `k`-th entry is the `k`-th evaluation. -/
def LogOf (ev : Nat → Mat n d K → Except Err (Costs n K)) (E : List (Mat n d K × Costs n K)) :
    Prop :=
  ∀ (k : Nat) (h : k < E.length), ev k E[k].1 = .ok E[k].2

/-- All costs evaluated in the log. -/
def allCosts (E : List (Mat n d K × Costs n K)) : List (XR K) :=
  E.flatMap fun e => (List.finRange n).map e.2

/-- `c` is the minimum of the non-`nan` values of `l`, with `+inf` for the empty minimum. -/
def IsMinOf [LT K] [DecidableLT K] (c : XR K) (l : List (XR K)) : Prop :=
  c ≠ XR.nan ∧ (c = XR.pinf ∨ c ∈ l) ∧ ∀ x ∈ l, XR.lt x c = false

/-- What it means that a call returned a matching, optimal pair `(c, p)`: `E` is the log of the
call, `c` is the minimum of the costs in it and, unless `c = +inf`, `p` was evaluated to `c`. -/
def MatchingOptimal [LT K] [DecidableLT K] (ev : Nat → Mat n d K → Except Err (Costs n K)) (s s' : Opt n d K) (c : XR K)
    (p : Vec d K) : Prop :=
  ∃ E, s'.evals = s.evals ++ E ∧ LogOf ev E ∧ IsMinOf c (allCosts E) ∧
    (c ≠ XR.pinf → ∃ e ∈ E, ∃ i, e.1 i = p ∧ e.2 i = c)

/-- For neighbour lists `nbr`, personal bests `(pp, pc)`: row `i` of `rows` is the personal best
position of the first neighbour of `i` with minimal personal best cost, and `c` is the smallest of
these neighbourhood minima. -/
def IsNbrBest [LT K] [DecidableLT K] (nbr : Fin n → List (Fin n)) (pp : Mat n d K)
    (pc : Costs n K) (rows : Mat n d K) (c : XR K) : Prop :=
  ∃ b : Fin n → Fin n,
    (∀ i, ∃ pre post, nbr i = pre ++ b i :: post ∧
      (∀ l ∈ pre, XR.lt (pc (b i)) (pc l) = true) ∧
      ∀ l ∈ nbr i, XR.lt (pc l) (pc (b i)) = false) ∧
    (∀ i, rows i = pp (b i)) ∧ (∃ i, c = pc (b i)) ∧ ∀ i, XR.lt (pc (b i)) c = false

/-- `nbr` is a legal answer of a `k`-nearest-neighbour query of the points `x` against themselves
for the distance `dist`: `k` distinct indices, nearest first, none of the others nearer. -/
def IsKnn [LE K] (dist : Vec d K → Vec d K → K) (k : Nat) (x : Mat n d K)
    (nbr : Fin n → List (Fin n)) : Prop :=
  ∀ i, (nbr i).length = k ∧ (nbr i).Nodup ∧
    (nbr i).Pairwise (fun a b => dist (x i) (x a) ≤ dist (x i) (x b)) ∧
    ∀ a ∈ nbr i, ∀ b, b ∉ nbr i → dist (x i) (x a) ≤ dist (x i) (x b)

/-- The two properties of a distance that matter here. -/
def IsDist [Zero K] [LE K] (dist : Vec d K → Vec d K → K) : Prop :=
  (∀ x y, 0 ≤ dist x y) ∧ ∀ x y, dist x y = 0 ↔ x = y

/-- Every particle is in some neighbourhood. -/
def Covers (nbr : Fin n → List (Fin n)) : Prop := ∀ j, ∃ i, j ∈ nbr i

/-- The topology of an optimizer. -/
def Kind.top : Kind → TopKind
  | .globalBest => .star
  | .localBest st => .ring st
  | .general t => t
  | .binary => .ring false

/-- The optimizer has the Star topology: `GlobalBestPSO`, or `GeneralOptimizerPSO(topology=Star())`. -/
def Kind.isStar : Kind → Prop
  | .globalBest => True
  | .general .star => True
  | _ => False

section
variable [Field K] [LinearOrder K] [Transc K] [FloorRing K]

/-- `s` is an optimizer object just constructed or just reset. -/
def Fresh (cfg : Config n d K) (s : Opt n d K) : Prop :=
  (∃ r1 r2, construct cfg r1 r2 = .ok s) ∨ ∃ s0 r, reset cfg r s0 = (s, .ok ())

/-- `s` is an optimizer object after construction and any sequence of API calls. -/
def Reachable (cfg : Config n d K) (s : Opt n d K) : Prop :=
  ∃ r1 r2 s0 ops, construct cfg r1 r2 = .ok s0 ∧ s = runOps cfg s0 ops

end

/-- Every coordinate of the matrix is inside the box. -/
def InBox [LE K] (b : Bounds d K) (x : Mat n d K) : Prop := ∀ i j, b.1 j ≤ x i j ∧ x i j ≤ b.2 j

/-- The bounds are proper: every lower bound is below its upper bound. -/
def ProperBounds [LT K] (b : Bounds d K) : Prop := ∀ j, b.1 j < b.2 j

/-- The two vectors drawn by `np.random.random_sample` in one boundary handler call are in [0,1). -/
def BHDraw.Legal [Zero K] [One K] [LE K] [LT K] (r : BHDraw d K) : Prop :=
  (∀ j, 0 ≤ r.u j ∧ r.u j < 1) ∧ ∀ j, 0 ≤ r.l j ∧ r.l j < 1

/-- Particle `i` is below some lower bound. -/
def Below [LT K] (b : Bounds d K) (x : Mat n d K) (i : Fin n) : Prop := ∃ j, x i j < b.1 j

/-- Particle `i` is above some upper bound. -/
def Above [LT K] (b : Bounds d K) (x : Mat n d K) (i : Fin n) : Prop := ∃ j, b.2 j < x i j

/-- `y` is an image of `x` under the group generated by the mirrors at `lb` and `ub`. -/
def MirrorImage [Ring K] (lb ub x y : K) : Prop :=
  ∃ m : ℤ, y = x + 2 * m * (ub - lb) ∨ y = 2 * lb - x + 2 * m * (ub - lb)

/-! ### Legal random draws -/

/-- The value is a sample of `np.random.random_sample()` or `np.random.uniform(0, 1)`. -/
def Unit01 [Zero K] [One K] [LE K] [LT K] (x : K) : Prop := 0 ≤ x ∧ x < 1

/-- All random values used by one iteration of `optimize` are in [0, 1). -/
def Draw.Legal [Zero K] [One K] [LE K] [LT K] (r : Draw n d K) : Prop :=
  (∀ i j, Unit01 (r.r1 i j)) ∧ (∀ i j, Unit01 (r.r2 i j)) ∧ r.bh.Legal ∧ (∀ o, Unit01 (r.oh o)) ∧
    ∀ j, Unit01 (r.thr j)

/-- All random values used by one swarm creation are in [0, 1). -/
def InitDraw.Legal [Zero K] [One K] [LE K] [LT K] (r : InitDraw n d K) : Prop :=
  (∀ i j, Unit01 (r.pos i j)) ∧ ∀ i j, Unit01 (r.vel i j)

/-- All random values used by an API call are in [0, 1). -/
def Op.Legal [Zero K] [One K] [LE K] [LT K] : Op n d K → Prop
  | .optimize _ _ _ env => ∀ i, (env i).Legal
  | .reset r => r.Legal

/-- The API call is `optimize`. -/
def Op.isOptimize : Op n d K → Prop
  | .optimize _ _ _ _ => True
  | .reset _ => False

section
variable [Field K] [LinearOrder K] [Transc K] [FloorRing K]

/-- `s` is an optimizer object after construction and any sequence of API calls, with every random
value in its documented range. -/
def ReachableLegal (cfg : Config n d K) (s : Opt n d K) : Prop :=
  ∃ r1 r2 s0 ops, r1.Legal ∧ r2.Legal ∧ (∀ op ∈ ops, op.Legal) ∧ construct cfg r1 r2 = .ok s0 ∧
    s = runOps cfg s0 ops

/-- All calls of the sequence return normally when executed from `s`. -/
def AllReturn (cfg : Config n d K) : Opt n d K → List (Op n d K) → Prop
  | _, [] => True
  | s, op :: ops =>
    (match op with
      | .optimize ev iters nproc env => ∃ v, (optimize cfg ev iters nproc env s).2 = .ok v
      | .reset r => (reset cfg r s).2 = .ok ()) ∧ AllReturn cfg (stepOp cfg s op) ops

end

end PySwarms
