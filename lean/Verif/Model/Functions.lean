import Verif.Basic
import Mathlib.Analysis.SpecialFunctions.Trigonometric.Basic
import Mathlib.Analysis.SpecialFunctions.Pow.Real
import Mathlib.Algebra.BigOperators.Fin

/-!
# The benchmark functions

utils/functions/single_obj.py, transcribed array expression by array expression.  Arrays have real
entries; `+`, `-`, `*`, `/`, `^` on vectors and matrices are the pointwise operations (Mathlib's
instances for function types), as in NumPy.  Exponents `2.0`, `3.0` are natural numbers here.
-/

namespace PySwarms.Bench

open Real

variable {n d : Nat}

/-- `np.f(v)`: a function applied elementwise (e.g. single_obj.py:70). -/
def each (f : ℝ → ℝ) (v : Vec n ℝ) : Vec n ℝ := fun i => f (v i)

/-- `np.f(x)` for a matrix (e.g. single_obj.py:71). -/
def eachM (f : ℝ → ℝ) (x : Mat n d ℝ) : Mat n d ℝ := fun i j => f (x i j)

/-- A number broadcast to a vector (e.g. single_obj.py:71). -/
def num (c : ℝ) : Vec n ℝ := fun _ => c

/-- A number broadcast to a matrix (e.g. single_obj.py:71). -/
def numM (c : ℝ) : Mat n d ℝ := fun _ _ => c

/-- `x[:, j]` (e.g. single_obj.py:111). -/
def col (x : Mat n d ℝ) (j : Fin d) : Vec n ℝ := fun i => x i j

/-- `x.sum(axis=1)` (e.g. single_obj.py:70, 717). -/
noncomputable def sum1 (x : Mat n d ℝ) : Vec n ℝ := fun i => ∑ j, x i j

/-- `np.sum(x, axis=0)` (single_obj.py:649-651). -/
noncomputable def sum0 (x : Mat n d ℝ) : Vec d ℝ := fun j => ∑ i, x i j

/-- `x.T` (single_obj.py:650). -/
def transpose (x : Mat n d ℝ) : Mat d n ℝ := fun j i => x i j

/-- `x[1:]` (rows) (single_obj.py:650). -/
def tailRows (x : Mat n d ℝ) : Mat (n - 1) d ℝ := fun i => x ⟨i.1 + 1, by omega⟩

/-- `x[:-1]` (rows) (single_obj.py:650). -/
def initRows (x : Mat n d ℝ) : Mat (n - 1) d ℝ := fun i => x ⟨i.1, by omega⟩

/-- `np.ma.array(x, mask=mask).sum(axis=1)` where the last column is masked (single_obj.py:549-552):
the sum over the other columns. -/
noncomputable def maskedSum1 (x : Mat n d ℝ) : Vec n ℝ :=
  fun i => ∑ j : Fin d, if j.1 + 1 = d then 0 else x i j

/-- `np.logical_and(x >= lo, x <= hi).all()` (e.g. single_obj.py:65). -/
def within (lo hi : ℝ) (x : Mat n d ℝ) : Prop := ∀ i j, lo ≤ x i j ∧ x i j ≤ hi

/-- the same for a vector (single_obj.py:190, 194). -/
def withinV (lo hi : ℝ) (v : Vec n ℝ) : Prop := ∀ i, lo ≤ v i ∧ v i ≤ hi

open Classical in
/-- `ackley` (single_obj.py:43-76); `1 / d` raises `ZeroDivisionError` for `d = 0`. -/
noncomputable def ackley (x : Mat n d ℝ) : Except Err (Vec n ℝ) :=
  if within (-32) 32 x then
    if d = 0 then .error .zeroDivision
    else .ok (
      num (-20.0) * each exp (num (-0.2) * each sqrt (num (1 / d) * sum1 (x ^ 2)))
      - each exp (num (1 / d) * sum1 (eachM cos (numM (2 * π) * x)))
      + num 20.0
      + num (exp 1))
  else .error .valueError

open Classical in
/-- `beale` (single_obj.py:79-119) -/
noncomputable def beale (x : Mat n d ℝ) : Except Err (Vec n ℝ) :=
  if h : d = 2 then
    if within (-4.5) 4.5 x then
      let x_ := col x ⟨0, by omega⟩
      let y_ := col x ⟨1, by omega⟩
      .ok (
        (num 1.5 - x_ + x_ * y_) ^ 2
        + (num 2.25 - x_ + x_ * y_ ^ 2) ^ 2
        + (num 2.625 - x_ + x_ * y_ ^ 3) ^ 2)
    else .error .valueError
  else .error .indexError

open Classical in
/-- `booth` (single_obj.py:122-156) -/
noncomputable def booth (x : Mat n d ℝ) : Except Err (Vec n ℝ) :=
  if h : d = 2 then
    if within (-10) 10 x then
      let x_ := col x ⟨0, by omega⟩
      let y_ := col x ⟨1, by omega⟩
      .ok ((x_ + 2 * y_ - 7) ^ 2 + (2 * x_ + y_ - 5) ^ 2)
    else .error .valueError
  else .error .indexError

open Classical in
/-- `bukin6` (single_obj.py:159-205) -/
noncomputable def bukin6 (x : Mat n d ℝ) : Except Err (Vec n ℝ) :=
  if h : d = 2 then
    if withinV (-15) (-5) (col x ⟨0, by omega⟩) then
      if withinV (-3) 3 (col x ⟨1, by omega⟩) then
        let x_ := col x ⟨0, by omega⟩
        let y_ := col x ⟨1, by omega⟩
        .ok (100 * each sqrt (each abs (y_ - num 0.01 * x_ ^ 2)) + num 0.01 * each abs (x_ + 10))
      else .error .valueError
    else .error .valueError
  else .error .indexError

open Classical in
/-- `crossintray` (single_obj.py:208-259) -/
noncomputable def crossintray (x : Mat n d ℝ) : Except Err (Vec n ℝ) :=
  if h : d = 2 then
    if within (-10) 10 x then
      let x_ := col x ⟨0, by omega⟩
      let y_ := col x ⟨1, by omega⟩
      .ok (num (-0.0001) * each (fun t => t ^ (0.1 : ℝ))
        (each abs (each sin x_ * each sin y_ *
          each exp (each abs (100 - each sqrt (x_ ^ 2 + y_ ^ 2) / num π))) + 1))
    else .error .valueError
  else .error .indexError

open Classical in
/-- `easom` (single_obj.py:262-307) -/
noncomputable def easom (x : Mat n d ℝ) : Except Err (Vec n ℝ) :=
  if h : d = 2 then
    if within (-100) 100 x then
      let x_ := col x ⟨0, by omega⟩
      let y_ := col x ⟨1, by omega⟩
      .ok (num (-1) * each cos x_ * each cos y_ *
        each exp (num (-1) * ((x_ - num π) ^ 2 + (y_ - num π) ^ 2)))
    else .error .valueError
  else .error .indexError

open Classical in
/-- `eggholder` (single_obj.py:310-354) -/
noncomputable def eggholder (x : Mat n d ℝ) : Except Err (Vec n ℝ) :=
  if h : d = 2 then
    if within (-512) 512 x then
      let x_ := col x ⟨0, by omega⟩
      let y_ := col x ⟨1, by omega⟩
      .ok (-(y_ + 47) * each sin (each sqrt (each abs (x_ / 2 + y_ + 47)))
        - x_ * each sin (each sqrt (each abs (x_ - (y_ + 47)))))
    else .error .valueError
  else .error .indexError

open Classical in
/-- `goldstein` (single_obj.py:357-419) -/
noncomputable def goldstein (x : Mat n d ℝ) : Except Err (Vec n ℝ) :=
  if h : d = 2 then
    if within (-2) 2 x then
      let x_ := col x ⟨0, by omega⟩
      let y_ := col x ⟨1, by omega⟩
      .ok (
        (1 + (x_ + y_ + 1) ^ 2
          * (19 - 14 * x_ + 3 * x_ ^ 2 - 14 * y_ + 6 * x_ * y_ + 3 * y_ ^ 2))
        * (30 + (2 * x_ - 3 * y_) ^ 2
          * (18 - 32 * x_ + 12 * x_ ^ 2 + 48 * y_ - 36 * x_ * y_ + 27 * y_ ^ 2)))
    else .error .valueError
  else .error .indexError

open Classical in
/-- `himmelblau` (single_obj.py:422-465) -/
noncomputable def himmelblau (x : Mat n d ℝ) : Except Err (Vec n ℝ) :=
  if h : d = 2 then
    if within (-5) 5 x then
      let x_ := col x ⟨0, by omega⟩
      let y_ := col x ⟨1, by omega⟩
      .ok ((x_ ^ 2 + y_ - 11) ^ 2 + (x_ + y_ ^ 2 - 7) ^ 2)
    else .error .valueError
  else .error .indexError

open Classical in
/-- `holdertable` (single_obj.py:468-515) -/
noncomputable def holdertable (x : Mat n d ℝ) : Except Err (Vec n ℝ) :=
  if h : d = 2 then
    if within (-10) 10 x then
      let x_ := col x ⟨0, by omega⟩
      let y_ := col x ⟨1, by omega⟩
      .ok (-each abs (each sin x_ * each cos y_ *
        each exp (each abs (1 - each sqrt (x_ ^ 2 + y_ ^ 2) / num π))))
    else .error .valueError
  else .error .indexError

open Classical in
/-- `levi` (single_obj.py:518-564); `d_ = x.shape[1] - 1` is the last column.  The result is a
masked array without masked entries in the code. -/
noncomputable def levi (x : Mat n d ℝ) : Except Err (Vec n ℝ) :=
  if h : d = 2 then
    if within (-10) 10 x then
      let w_ : Mat n d ℝ := 1 + (x - 1) / 4
      .ok (
        each sin (num π * col w_ ⟨0, by omega⟩) ^ 2
        + maskedSum1 ((x - 1) ^ 2) * (1 + 10 * each sin (num π * maskedSum1 w_ + 1) ^ 2)
        + (col w_ ⟨d - 1, by omega⟩ - 1) ^ 2
          * (1 + each sin (num (2 * π) * col w_ ⟨d - 1, by omega⟩) ^ 2))
    else .error .valueError
  else .error .indexError

open Classical in
/-- `matyas` (single_obj.py:567-594) -/
noncomputable def matyas (x : Mat n d ℝ) : Except Err (Vec n ℝ) :=
  if h : d = 2 then
    if within (-10) 10 x then
      let x_ := col x ⟨0, by omega⟩
      let y_ := col x ⟨1, by omega⟩
      .ok (num 0.26 * (x_ ^ 2 + y_ ^ 2) - num 0.48 * x_ * y_)
    else .error .valueError
  else .error .indexError

open Classical in
/-- `rastrigin` (single_obj.py:597-627) -/
noncomputable def rastrigin (x : Mat n d ℝ) : Except Err (Vec n ℝ) :=
  if within (-5.12) 5.12 x then
    .ok (num (10.0 * d) + sum1 (x ^ 2 - numM 10.0 * eachM cos (numM (2.0 * π) * x)))
  else .error .valueError

/-- `rosenbrock` (single_obj.py:630-653) -/
noncomputable def rosenbrock (x : Mat n d ℝ) : Except Err (Vec n ℝ) :=
  .ok (sum0 (100 * (tailRows (transpose x) - initRows (transpose x) ^ 2) ^ 2
    + (1 - initRows (transpose x)) ^ 2))

open Classical in
/-- `schaffer2` (single_obj.py:656-698) -/
noncomputable def schaffer2 (x : Mat n d ℝ) : Except Err (Vec n ℝ) :=
  if h : d = 2 then
    if within (-100) 100 x then
      let x_ := col x ⟨0, by omega⟩
      let y_ := col x ⟨1, by omega⟩
      .ok (num 0.5 + (each sin (x_ ^ 2 - y_ ^ 2) ^ 2 - num 0.5)
        / (1 + num 0.001 * (x_ ^ 2 + y_ ^ 2)) ^ 2)
    else .error .valueError
  else .error .indexError

/-- `sphere` (single_obj.py:701-719) -/
noncomputable def sphere (x : Mat n d ℝ) : Except Err (Vec n ℝ) := .ok (sum1 (x ^ 2))

open Classical in
/-- `threehump` (single_obj.py:722-764) -/
noncomputable def threehump (x : Mat n d ℝ) : Except Err (Vec n ℝ) :=
  if h : d = 2 then
    if within (-5) 5 x then
      let x_ := col x ⟨0, by omega⟩
      let y_ := col x ⟨1, by omega⟩
      .ok (2 * x_ ^ 2 - num 1.05 * x_ ^ 4 + x_ ^ 6 / 6 + x_ * y_ + y_ ^ 2)
    else .error .valueError
  else .error .indexError

end PySwarms.Bench
