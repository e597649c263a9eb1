import Verif.Model.Optimizer

/-!
# Hyperparameter search

* `SearchBase` – utils/search/base_search.py
* `GridSearch` – utils/search/grid_search.py
* `RandomSearch` – utils/search/random_search.py
-/

namespace PySwarms

/-! ## Scoring -/

section
variable {O K : Type}

/-- `scores = [self.generate_score(i) for i in grid]` (base_search.py:130): the log of the calls
made and the scores, or the first exception.  `score k o` is the outcome of the `k`-th call (the
optimizer is random). -/
def scoreAll (score : Nat → O → Except Err (XR K)) : Nat → List O →
    List (Nat × O) × Except Err (List (XR K))
  | _, [] => ([], .ok [])
  | k, o :: rest =>
    match score k o with
    | .error e => ([(k, o)], .error e)
    | .ok c =>
      match scoreAll score (k + 1) rest with
      | (log, .error e) => ((k, o) :: log, .error e)
      | (log, .ok cs) => ((k, o) :: log, .ok (c :: cs))

variable [LT K] [DecidableLT K]

/-- `min(enumerate(scores), key=itemgetter(1))`: an element displaces the current one only if its
key is smaller (base_search.py:133). -/
def pyMin : List (Nat × XR K) → Option (Nat × XR K)
  | [] => none
  | a :: l => some (l.foldl (fun cur b => if XR.lt b.2 cur.2 then b else cur) a)

/-- `max(enumerate(scores), key=itemgetter(1))` (base_search.py:137). -/
def pyMax : List (Nat × XR K) → Option (Nat × XR K)
  | [] => none
  | a :: l => some (l.foldl (fun cur b => if XR.lt cur.2 b.2 then b else cur) a)

/-- `enumerate(scores)` (base_search.py:133). -/
def enumerate (l : List (XR K)) : List (Nat × XR K) := (List.range l.length).zip l

/-- `search(maximum)` (base_search.py:113-141) on a grid that has been generated: the log of the
calls of `generate_score` and the returned pair. -/
def search (score : Nat → O → Except Err (XR K)) (maximum : Bool) (grid : List O) :
    List (Nat × O) × Except Err (XR K × O) :=
  match scoreAll score 0 grid with
  | (log, .error e) => (log, .error e)
  | (log, .ok scores) =>
    match pyMin (enumerate scores) with
    | none => (log, .error .valueError)
    | some m =>
      match (if maximum then pyMax (enumerate scores) else some m) with
      | none => (log, .error .valueError)
      | some (idx, c) =>
        match grid[idx]? with
        | none => (log, .error .indexError)
        | some o => (log, .ok (c, o))

end

/-! ## GridSearch -/

section
variable {V : Type}

/-- An option given to `GridSearch`: a list, or anything else (a single value)
(grid_search.py:78-81). -/
inductive GridVal (V : Type)
  | list (l : List V)
  | single (v : V)

/-- `x if type(x) == list else [x]` (grid_search.py:78-81). -/
def GridVal.items : GridVal V → List V
  | .list l => l
  | .single v => [v]

/-- `itertools.product(*items)`: the last factor varies fastest (grid_search.py:85). -/
def product : List (List V) → List (List V)
  | [] => [[]]
  | l :: ls => l.flatMap fun v => (product ls).map fun t => v :: t

/-- `GridSearch.generate_grid` (grid_search.py:73-88).  Dictionaries are lists of pairs in insertion
order.  For an empty dictionary, `list(zip(*[]))[1]` raises `IndexError`. -/
def gridSearchGrid (options : List (String × GridVal V)) :
    Except Err (List (List (String × V))) :=
  if options.isEmpty then .error .indexError
  else .ok ((product (options.map fun o => o.2.items)).map fun t => (options.map Prod.fst).zip t)

end

/-! ## RandomSearch -/

section
variable {K : Type} [Field K]

/-- An option given to `RandomSearch`: a list of numbers, a list of integers, or one number
(random_search.py:105-124). -/
inductive RandVal (K : Type)
  | nums (l : List K)
  | ints (l : List Int)
  | const (c : K)

/-- One hyperparameter combination (random_search.py:128-134). -/
structure Combo (K : Type) where
  c1 : K
  c2 : K
  w : K
  k : Int
  p : RandVal K

/-- Random numbers used by `generate_grid`: `u key i ∈ [0, 1)` and `z i`, an arbitrary natural
number (reduced modulo the width of the range) (random_search.py:113-124). -/
structure SearchDraw (K : Type) where
  u : String → Nat → K
  z : Nat → Nat

/-- An array of parameter values (random_search.py:122). -/
inductive ParamArray (K : Type)
  | reals (a : Nat → K)
  | ints (a : Nat → Int)

/-- `np.random.uniform(*bounds, size=m)` (random_search.py:121-124): `low + (high - low) * u`. -/
def npUniform (u : Nat → K) (m : Int) (bounds : List K) : Except Err (Nat → K) :=
  match bounds with
  | [] => if m < 0 then .error .valueError else .ok fun i => u i
  | [lo] => if m < 0 then .error .valueError else .ok fun i => lo + (1 - lo) * u i
  | [lo, hi] => if m < 0 then .error .valueError else .ok fun i => lo + (hi - lo) * u i
  | _ => .error .typeError

/-- `np.random.randint(*bounds, size=m)` (random_search.py:121-124). -/
def npRandint (z : Nat → Nat) (m : Int) (bounds : List Int) : Except Err (Nat → Int) :=
  match bounds with
  | [hi] => if hi ≤ 0 then .error .valueError
      else if m < 0 then .error .valueError else .ok fun i => (z i : Int) % hi
  | [lo, hi] => if hi ≤ lo then .error .valueError
      else if m < 0 then .error .valueError else .ok fun i => lo + (z i : Int) % (hi - lo)
  | _ => .error .typeError

/-- `param_generators[idx](*bounds, size=self.n_selection_iters)` (random_search.py:112-124).  An
unknown key raises `KeyError`, a number cannot be unpacked, non-integer bounds of `randint` are not
modelled. -/
def genParam (r : SearchDraw K) (m : Int) (key : String) (bounds : RandVal K) :
    Except Err (ParamArray K) :=
  if key = "c1" ∨ key = "c2" ∨ key = "w" then
    match bounds with
    | .nums l => (npUniform (r.u key) m l).map .reals
    | .ints l => (npUniform (r.u key) m (l.map fun z => (z : K))).map .reals
    | .const _ => .error .typeError
  else if key = "k" then
    match bounds with
    | .ints l => (npRandint r.z m l).map .ints
    | .nums _ => .error .unmodelled
    | .const _ => .error .typeError
  else .error .keyError

/-- The loop over `options.items()` (random_search.py:121-124). -/
def genParams (r : SearchDraw K) (m : Int) : List (String × RandVal K) →
    Except Err (List (String × ParamArray K))
  | [] => .ok []
  | (key, b) :: rest =>
    match genParam r m key b with
    | .error e => .error e
    | .ok a =>
      match genParams r m rest with
      | .error e => .error e
      | .ok l => .ok ((key, a) :: l)

/-- `params[key][i]` for a real parameter (random_search.py:129-131). -/
def realAt (params : List (String × ParamArray K)) (key : String) (i : Nat) : Except Err K :=
  match params.lookup key with
  | some (.reals a) => .ok (a i)
  | some (.ints _) => .error .unmodelled
  | none => .error .keyError

/-- `params[key][i]` for an integer parameter (random_search.py:132). -/
def intAt (params : List (String × ParamArray K)) (key : String) (i : Nat) : Except Err Int :=
  match params.lookup key with
  | some (.ints a) => .ok (a i)
  | some (.reals _) => .error .unmodelled
  | none => .error .keyError

/-- One element of the returned list (random_search.py:127-136). -/
def comboAt (params : List (String × ParamArray K)) (p : RandVal K) (i : Nat) :
    Except Err (Combo K) :=
  match realAt params "c1" i with
  | .error e => .error e
  | .ok c1 =>
    match realAt params "c2" i with
    | .error e => .error e
    | .ok c2 =>
      match realAt params "w" i with
      | .error e => .error e
      | .ok w =>
        match intAt params "k" i with
        | .error e => .error e
        | .ok k => .ok ⟨c1, c2, w, k, p⟩

/-- The list comprehension over `xrange(n_selection_iters)` (random_search.py:127-136). -/
def combos (params : List (String × ParamArray K)) (p : RandVal K) : Nat → Nat →
    Except Err (List (Combo K))
  | _, 0 => .ok []
  | i, m + 1 =>
    match comboAt params p i with
    | .error e => .error e
    | .ok c =>
      match combos params p (i + 1) m with
      | .error e => .error e
      | .ok l => .ok (c :: l)

/-- `RandomSearch.generate_grid` (random_search.py:102-136). -/
def randomSearchGrid (r : SearchDraw K) (m : Int) (options : List (String × RandVal K)) :
    Except Err (List (Combo K)) :=
  match options.lookup "p" with
  | none => .error .keyError
  | some p =>
    match genParams r m (options.filter fun o => o.1 ≠ "p") with
    | .error e => .error e
    | .ok params => combos params p 0 m.toNat

end

/-! ## generate_score -/

section
variable {n d : Nat} {K : Type} [Field K] [LinearOrder K] [Transc K] [FloorRing K]

/-- `generate_score` (base_search.py:91-111): a new optimizer object, one call of `optimize`, the
first component of its result.  `cfg` is the configuration made from the options
(`GlobalBestPSO` and `LocalBestPSO`, whose fourth positional argument is `bounds`). -/
def generateScore (cfg : Config n d K) (ev : Nat → Mat n d K → Except Err (Costs n K))
    (iters : Nat) (r1 r2 : InitDraw n d K) (env : Nat → Draw n d K) : Except Err (XR K) :=
  match construct cfg r1 r2 with
  | .error e => .error e
  | .ok s =>
    match (optimize cfg ev iters none env s).2 with
    | .error e => .error e
    | .ok (c, _) => .ok c

end

end PySwarms
