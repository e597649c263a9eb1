import Verif.Model.Rng
import Verif.Model.Search

/-!
# Hyperparameter search on the global NumPy generator

`SearchBase.search` (utils/search/base_search.py) as a program that threads the state of the global
generator through the runs of the combinations.
-/

namespace PySwarms

section
variable {O K G : Type}

/-- `scores = [self.generate_score(i) for i in grid]` (base_search.py:130), threading the
generator. -/
def scoreAllG (score : O → G → G × Except Err (XR K)) : List O → G →
    G × Except Err (List (XR K))
  | [], g => (g, .ok [])
  | o :: rest, g =>
    match score o g with
    | (g1, .error e) => (g1, .error e)
    | (g1, .ok c) =>
      match scoreAllG score rest g1 with
      | (g2, .error e) => (g2, .error e)
      | (g2, .ok cs) => (g2, .ok (c :: cs))

variable [LT K] [DecidableLT K]

/-- `search` (base_search.py:113-141); choosing the best score does not use the generator. -/
def searchG (score : O → G → G × Except Err (XR K)) (maximum : Bool) (grid : List O) (g : G) :
    G × Except Err (XR K × O) :=
  match scoreAllG score grid g with
  | (g1, .error e) => (g1, .error e)
  | (g1, .ok scores) =>
    match pyMin (enumerate scores) with
    | none => (g1, .error .valueError)
    | some m =>
      match (if maximum then pyMax (enumerate scores) else some m) with
      | none => (g1, .error .valueError)
      | some (idx, c) =>
        match grid[idx]? with
        | none => (g1, .error .indexError)
        | some o => (g1, .ok (c, o))

end

section
variable {n d : Nat} {K G : Type} [Field K] [LinearOrder K] [Transc K] [FloorRing K]

/-- `generate_score` (base_search.py:91-111): a new optimizer object, one call of `optimize`. -/
def generateScoreG (cfg : Config n d K) (ev : Nat → ObjG n d K G) (rng : Rng n d K G)
    (ext : Libs n d K) (iters : Nat) (g : G) : G × Except Err (XR K) :=
  match constructG cfg rng g with
  | (g1, .error e) => (g1, .error e)
  | (g1, .ok s) =>
    match optimizeG cfg ev rng ext iters none g1 s with
    | (g2, _, .error e) => (g2, .error e)
    | (g2, _, .ok (c, _)) => (g2, .ok c)

/-- The optimizer made for a combination: the constructor arguments other than the options are
those given to the search (base_search.py:101-108); `args` are the entries `k`, `p`, ... of the same
dictionary. -/
def Config.withOptions (base : Config n d K) (o : Opts K × TopArgs) : Config n d K :=
  { base with options := o.1, args := o.2 }

end

end PySwarms
