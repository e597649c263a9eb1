import Verif.Model.SearchRng
import Mathlib.Logic.Function.Iterate

/-!
# RandomSearch with the state of the generator

`generate_grid` of `RandomSearch` draws its combinations from the generator that the optimizers then
use.
-/

namespace PySwarms

variable {K O G : Type} [Field K]

/-- The global generator as `generate_grid` uses it: the next double of `[0, 1)`, and the next integer
below a width, each with the state after it (`np.random.uniform`, `np.random.randint`,
random_search.py:113-118). -/
structure GridRng (K G : Type) where
  real : G → K × G
  int : Nat → G → Nat × G

/-- The state after `m` doubles (random_search.py:122-124). -/
def GridRng.afterReals (rng : GridRng K G) (m : Nat) (g : G) : G := (fun g => (rng.real g).2)^[m] g

/-- The state after `m` integers below `width` (random_search.py:122-124). -/
def GridRng.afterInts (rng : GridRng K G) (width m : Nat) (g : G) : G :=
  (fun g => (rng.int width g).2)^[m] g

/-- The `i`-th double from a state on (random_search.py:122-124). -/
def GridRng.realAt (rng : GridRng K G) (i : Nat) (g : G) : K := (rng.real (rng.afterReals i g)).1

/-- The `i`-th integer from a state on (random_search.py:122-124). -/
def GridRng.intAt (rng : GridRng K G) (width i : Nat) (g : G) : Nat :=
  (rng.int width (rng.afterInts width i g)).1

/-- The width of the range of `np.random.randint(*bounds)` (random_search.py:122-124). -/
def RandVal.width : RandVal K → Nat
  | .ints [hi] => hi.toNat
  | .ints [lo, hi] => (hi - lo).toNat
  | _ => 0

/-- `param_generators[idx](*bounds, size=self.n_selection_iters)` (random_search.py:122-124): the array
is drawn element by element; a call that raises has not drawn. -/
def genParamG (rng : GridRng K G) (m : Int) (key : String) (bounds : RandVal K) (g : G) :
    G × Except Err (ParamArray K) :=
  match genParam ⟨fun _ i => rng.realAt i g, fun i => rng.intAt bounds.width i g⟩ m key bounds with
  | .error e => (g, .error e)
  | .ok a => (if key = "k" then rng.afterInts bounds.width m.toNat g
      else rng.afterReals m.toNat g, .ok a)

/-- The loop over `options.items()` (random_search.py:121-124), threading the generator. -/
def genParamsG (rng : GridRng K G) (m : Int) : List (String × RandVal K) → G →
    G × Except Err (List (String × ParamArray K))
  | [], g => (g, .ok [])
  | (key, b) :: rest, g =>
    match genParamG rng m key b g with
    | (g1, .error e) => (g1, .error e)
    | (g1, .ok a) =>
      match genParamsG rng m rest g1 with
      | (g2, .error e) => (g2, .error e)
      | (g2, .ok l) => (g2, .ok ((key, a) :: l))

/-- `RandomSearch.generate_grid` (random_search.py:102-136), threading the generator. -/
def randomSearchGridG (rng : GridRng K G) (m : Int) (options : List (String × RandVal K)) (g : G) :
    G × Except Err (List (Combo K)) :=
  match options.lookup "p" with
  | none => (g, .error .keyError)
  | some p =>
    match genParamsG rng m (options.filter fun o => o.1 ≠ "p") g with
    | (g1, .error e) => (g1, .error e)
    | (g1, .ok params) => (g1, combos params p 0 m.toNat)

/-- `search` of a `RandomSearch` (base_search.py:113-141): the grid (base_search.py:127), then the
scores, from one generator. -/
def randomSearchG [LT K] [DecidableLT K] (rng : GridRng K G) (score : Combo K → G → G × Except Err (XR K))
    (m : Int) (options : List (String × RandVal K)) (maximum : Bool) (g : G) :
    G × Except Err (XR K × Combo K) :=
  match randomSearchGridG rng m options g with
  | (g1, .error e) => (g1, .error e)
  | (g1, .ok grid) => searchG score maximum grid g1

end PySwarms
