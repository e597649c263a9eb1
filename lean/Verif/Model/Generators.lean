import Verif.Model.Operators

/-!
# `pyswarms/backend/generators.py`

Uniform draws are arguments: `u i j` stands for a sample of `np.random.random_sample()`.
`np.random.uniform(low, high)` is `low + (high - low) * u`.
-/

namespace PySwarms

variable {n d : Nat} {K : Type} [Field K] [LinearOrder K]

/-- `generate_swarm` (generators.py:24-93).  `center` is a scalar or an array of shape `(d,)`
(here always the latter).  Shape errors are excluded by typing. -/
def generateSwarm (bounds : Option (Bounds d K)) (center : Vec d K)
    (initPos : Option (Mat n d K)) (u : Mat n d K) : Except Err (Mat n d K) :=
  match initPos, bounds with
  | some p, none => .ok p
  | some p, some b =>
    if ((List.finRange n).all fun i => (List.finRange d).all fun j => decide (b.1 j ≤ p i j)) &&
       ((List.finRange n).all fun i => (List.finRange d).all fun j => decide (p i j ≤ b.2 j))
    then .ok p else .error .valueError
  | none, none => .ok fun i j => center j * (0 + (1 - 0) * u i j)
  | none, some b => .ok fun i j => center j * (b.1 j + (b.2 j - b.1 j) * u i j)

/-- `len(np.unique(init_pos)) <= 2` (generators.py:128). -/
def atMostTwoValues (p : Mat n d K) : Bool :=
  decide (((List.finRange n).flatMap fun i => (List.finRange d).map fun j => p i j).dedup.length
    ≤ 2)

/-- `random_sample(size=d).argsort()` for one row (generators.py:137-139).  `argsort` (quicksort,
not stable) is an oracle: `perm` is any list of indices; theorems assume it sorts `u`. -/
abbrev ArgsortOracle (n d : Nat) := Fin n → Fin d → Fin d

/-- `generate_discrete_swarm` (generators.py:96-148). -/
def generateDiscreteSwarm (binary : Bool) (initPos : Option (Mat n d K))
    (bits : Fin n → Fin d → Bool) (argsort : ArgsortOracle n d) : Except Err (Mat n d K) :=
  match initPos, binary with
  | some p, true => if !(atMostTwoValues p) then .error .valueError else .ok p
  | some p, false => .ok p
  | none, true => .ok fun i j => if bits i j then 1 else 0
  | none, false => .ok fun i j => ((argsort i j : Nat) : K)

/-- `generate_velocity` (generators.py:151-184). -/
def generateVelocity (clamp : Option (Clamp d K)) (u : Mat n d K) : Mat n d K :=
  let c : Clamp d K := match clamp with
    | none => (fun _ => 0, fun _ => 1)
    | some c => c
  fun i j => (c.2 j - c.1 j) * u i j + c.1 j

/-- Draws consumed by one `create_swarm` call (generators.py:70-83, 135-139, 172). -/
structure InitDraw (n d : Nat) (K : Type) where
  pos : Mat n d K
  bits : Fin n → Fin d → Bool
  argsort : ArgsortOracle n d
  vel : Mat n d K

/-- `create_swarm` (generators.py:187-245). -/
def createSwarm (discrete binary : Bool) (options : Opts K) (bounds : Option (Bounds d K))
    (center : Vec d K) (initPos : Option (Mat n d K)) (clamp : Option (Clamp d K))
    (r : InitDraw n d K) : Except Err (Swarm n d K) :=
  let position : Except Err (Mat n d K) :=
    if discrete then generateDiscreteSwarm binary initPos r.bits r.argsort
    else generateSwarm bounds center initPos r.pos
  match position with
  | .error e => .error e
  | .ok p => .ok (mkSwarm p (generateVelocity clamp r.vel) options)

end PySwarms
