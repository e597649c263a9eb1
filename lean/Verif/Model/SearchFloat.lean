import Verif.Model.Search

/-!
# RandomSearch in floating point

`generate_grid` (utils/search/random_search.py:102-136) with the arithmetic of
`np.random.uniform` rounded by a function `fl`; with `fl = id` it is the model of `Search.lean`.
-/

namespace PySwarms

variable {K : Type} [Field K]

/-- `np.random.uniform(*bounds, size=m)` (random_search.py:121-124): the width is rounded, its
product with the sample and the sum are rounded.  Simplification: NumPy raises `OverflowError` for a
width that is not finite; the rounding `fl` has no overflow. -/
def npUniformR (fl : K → K) (u : Nat → K) (m : Int) (bounds : List K) : Except Err (Nat → K) :=
  match bounds with
  | [] => if m < 0 then .error .valueError else .ok fun i => fl (0 + fl (fl (1 - 0) * u i))
  | [lo] => if m < 0 then .error .valueError else .ok fun i => fl (lo + fl (fl (1 - lo) * u i))
  | [lo, hi] => if m < 0 then .error .valueError
      else .ok fun i => fl (lo + fl (fl (hi - lo) * u i))
  | _ => .error .typeError

/-- `param_generators[idx](*bounds, size=self.n_selection_iters)` (random_search.py:112-124);
integer bounds of `uniform` are converted to doubles. -/
def genParamR (fl : K → K) (r : SearchDraw K) (m : Int) (key : String) (bounds : RandVal K) :
    Except Err (ParamArray K) :=
  if key = "c1" ∨ key = "c2" ∨ key = "w" then
    match bounds with
    | .nums l => (npUniformR fl (r.u key) m l).map .reals
    | .ints l => (npUniformR fl (r.u key) m (l.map fun z => fl (z : K))).map .reals
    | .const _ => .error .typeError
  else if key = "k" then
    match bounds with
    | .ints l => (npRandint r.z m l).map .ints
    | .nums _ => .error .unmodelled
    | .const _ => .error .typeError
  else .error .keyError

/-- The loop over `options.items()` (random_search.py:121-124). -/
def genParamsR (fl : K → K) (r : SearchDraw K) (m : Int) : List (String × RandVal K) →
    Except Err (List (String × ParamArray K))
  | [] => .ok []
  | (key, b) :: rest =>
    match genParamR fl r m key b with
    | .error e => .error e
    | .ok a =>
      match genParamsR fl r m rest with
      | .error e => .error e
      | .ok l => .ok ((key, a) :: l)

/-- `RandomSearch.generate_grid` (random_search.py:102-136). -/
def randomSearchGridR (fl : K → K) (r : SearchDraw K) (m : Int)
    (options : List (String × RandVal K)) : Except Err (List (Combo K)) :=
  match options.lookup "p" with
  | none => .error .keyError
  | some p =>
    match genParamsR fl r m (options.filter fun o => o.1 ≠ "p") with
    | .error e => .error e
    | .ok params => combos params p 0 m.toNat

end PySwarms
