import Mathlib.Algebra.Order.Field.Basic
import Mathlib.Data.List.FinRange
import Mathlib.Tactic.Ring
import Mathlib.Tactic.Linarith

/-!
# Numerical and exception substrate

Models the small part of Python / NumPy that pyswarms relies on: exceptions as
values, IEEE-style cost values (finite, `+inf`, `-inf`, `nan`), and the NumPy
reductions `np.min`, `ndarray.argmin`, `np.mean`.

Cost values are *not* rounded: `XR K` is an exact ordered field `K` plus the three
IEEE special values.  Comparisons (`<`) are exactly the IEEE comparisons, so every
theorem that only uses `XR.lt` holds verbatim of float64 costs.
-/

namespace PySwarms

/-- Python exceptions raised (directly or through NumPy/SciPy) by the modelled code.
`nonFinite` is not an exception: it marks the points where NumPy would silently
produce `nan`/`inf` coordinates, i.e. where the exact position model stops.
`diverges` marks a `while` loop that has not finished within the allotted passes.
`unmodelled` marks branches deliberately left out of the model. -/
inductive Err
  | valueError | keyError | typeError | attributeError | indexError | assertionError
  | recursionError | notImplemented | zeroDivision
  | user (code : Nat)
  | nonFinite | diverges | unmodelled
  deriving DecidableEq, Repr

/-- A NumPy matrix of shape `(n, d)`. -/
abbrev Mat (n d : Nat) (K : Type) := Fin n → Fin d → K

/-- A NumPy vector of shape `(d,)`. -/
abbrev Vec (d : Nat) (K : Type) := Fin d → K

/-- float64-like values: exact finite numbers plus the IEEE specials. -/
inductive XR (K : Type)
  | nan | ninf | fin (a : K) | pinf
  deriving DecidableEq, Repr

namespace XR
variable {K : Type}

/-- `np.isnan` -/
def isNan : XR K → Bool
  | nan => true
  | _ => false

/-- IEEE `<` : every comparison with `nan` is false. -/
def lt [LT K] [DecidableLT K] : XR K → XR K → Bool
  | nan, _ => false
  | _, nan => false
  | ninf, ninf => false
  | ninf, _ => true
  | _, ninf => false
  | pinf, _ => false
  | fin _, pinf => true
  | fin a, fin b => decide (a < b)

/-- IEEE `+` -/
def add [Add K] : XR K → XR K → XR K
  | nan, _ => nan
  | _, nan => nan
  | pinf, ninf => nan
  | ninf, pinf => nan
  | pinf, _ => pinf
  | _, pinf => pinf
  | ninf, _ => ninf
  | _, ninf => ninf
  | fin a, fin b => fin (a + b)

/-- IEEE unary `-` -/
def neg [Neg K] : XR K → XR K
  | nan => nan
  | pinf => ninf
  | ninf => pinf
  | fin a => fin (-a)

/-- IEEE `-` -/
def sub [Add K] [Neg K] (a b : XR K) : XR K := add a (neg b)

/-- `np.abs` -/
def abs [Zero K] [LT K] [DecidableLT K] [Neg K] : XR K → XR K
  | nan => nan
  | pinf => pinf
  | ninf => pinf
  | fin a => if a < 0 then fin (-a) else fin a

/-- sign used to multiply an infinity by a finite value: `0 * inf = nan`. -/
def infTimes [Zero K] [LT K] [DecidableLT K] (positive : Bool) (a : K) : XR K :=
  if 0 < a then (if positive then pinf else ninf)
  else if a < 0 then (if positive then ninf else pinf)
  else nan

/-- IEEE `*` -/
def mul [Zero K] [Mul K] [LT K] [DecidableLT K] : XR K → XR K → XR K
  | nan, _ => nan
  | _, nan => nan
  | fin a, fin b => fin (a * b)
  | pinf, fin b => infTimes true b
  | ninf, fin b => infTimes false b
  | fin a, pinf => infTimes true a
  | fin a, ninf => infTimes false a
  | pinf, pinf => pinf
  | ninf, ninf => pinf
  | pinf, ninf => ninf
  | ninf, pinf => ninf

/-- division by a positive count, as used by `np.mean` -/
def divNat [DivisionRing K] (a : XR K) (m : Nat) : XR K :=
  match a with
  | fin x => fin (x / (m : K))
  | other => other

end XR

/-- A vector of costs, one per particle (shape `(n,)`). -/
abbrev Costs (n : Nat) (K : Type) := Fin n → XR K

section reductions
variable {K : Type} [LT K] [DecidableLT K]

/-- Does `x` displace `y` as the running minimum of NumPy's `min`/`argmin`?  NumPy
propagates the first `nan`. -/
def npBetter (x y : XR K) : Bool :=
  !y.isNan && (x.isNan || XR.lt x y)

/-- `ndarray.argmin()` on a 1-D array restricted to the index list `l` (in order):
index of the first minimum, the first `nan` if there is one.  `none` is NumPy's
`ValueError: attempt to get argmin of an empty sequence`. -/
def argminOver {ι : Type} (c : ι → XR K) (l : List ι) : Option ι :=
  l.foldl (fun acc i =>
    match acc with
    | none => some i
    | some j => if npBetter (c i) (c j) then some i else some j) none

/-- `np.argmin(c)` -/
def npArgmin {n : Nat} (c : Costs n K) : Option (Fin n) :=
  argminOver c (List.finRange n)

/-- `np.min(c)`; `none` is NumPy's `ValueError` for a zero-size array. -/
def npMin {n : Nat} (c : Costs n K) : Option (XR K) :=
  (npArgmin c).map c

end reductions

/-- `np.mean(c)`: `nan` for the empty array (NumPy warns). -/
def npMean {K : Type} [DivisionRing K] {n : Nat} (c : Costs n K) : XR K :=
  if n = 0 then XR.nan
  else XR.divNat ((List.finRange n).foldl (fun acc i => XR.add acc (c i)) (XR.fin 0)) n

end PySwarms
