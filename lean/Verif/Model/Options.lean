import Verif.Model.Operators

/-!
# `pyswarms/backend/handlers.py`: OptionsHandler (lines 549-764)
-/

namespace PySwarms

/-- The transcendental functions used by the code: `math.exp`/`np.exp` and `**`.
`Verif.Model.RealOps` gives the instance for `ℝ` (handlers.py:661, 756-758; binary.py:282). -/
class Transc (K : Type) where
  exp : K → K
  pow : K → K → K

variable {K : Type} [Field K] [LinearOrder K] [Transc K]

/-- Keyword arguments of the option strategies (handlers.py:642-649, 656-658, 662, 740-743). -/
structure OHKw (K : Type) where
  iternow : Option K := none
  itermax : Option K := none
  endOpts : Option (Opts K) := none
  d1 : Option K := none
  d2 : Option K := none
  n : Option K := none

/-- The pair `(start, end)` computed identically in `exp_decay`, `lin_variation` and
`nonlin_mod` (handlers.py:651-660, 686-695, 744-754): defaults `w: 0.4`, `c1: 0.8*c1`,
`c2: 1*c2`, overridden by `end_opts[opt]` when given. -/
def startEnd (start : Opts K) (opt : String) (kw : OHKw K) : Except Err (K × K) :=
  match start.lookup "c1", start.lookup "c2" with
  | some c1, some c2 =>
    let base : Opts K := [("w", 2 / 5), ("c1", 4 / 5 * c1), ("c2", 1 * c2)]
    let e := match kw.endOpts with
      | none => base.lookup opt
      | some eo => match eo.lookup opt with
        | some x => some x
        | none => base.lookup opt
    match start.lookup opt, e with
    | some s, some e => .ok (s, e)
    | _, _ => .error .keyError
  | _, _ => .error .keyError

/-- `OptionsHandler.exp_decay` (handlers.py:625-668). -/
def ohExpDecay (start : Opts K) (opt : String) (kw : OHKw K) : Except Err K :=
  let d1 := kw.d1.getD (1 / 5)
  let d2 := kw.d2.getD 7
  match startEnd start opt kw with
  | .error e => .error e
  | .ok (s, e) =>
    match kw.iternow, kw.itermax with
    | some i, some m =>
      if m = 0 then .error .zeroDivision
      else if 1 + d2 * i / m = 0 then .error .zeroDivision
      else .ok ((s - e - d1) * Transc.exp (1 / (1 + d2 * i / m)))
    | _, _ => .error .keyError

/-- `OptionsHandler.lin_variation` (handlers.py:670-705). -/
def ohLinVariation (start : Opts K) (opt : String) (kw : OHKw K) : Except Err K :=
  match startEnd start opt kw with
  | .error e => .error e
  | .ok (s, e) =>
    match kw.iternow, kw.itermax with
    | some i, some m =>
      if m = 0 then .error .zeroDivision
      else .ok (e + (s - e) * (m - i) / m)
    | _, _ => .error .keyError

/-- `OptionsHandler.random` (handlers.py:707-722); `u` is `np.random.rand()`. -/
def ohRandom (start : Opts K) (opt : String) (kw : OHKw K) (u : K) : Except Err K :=
  match start.lookup opt with
  | none => .error .keyError
  | some s =>
    match kw.endOpts with
    | none => .error .keyError
    | some eo =>
      let e := match eo.lookup opt with
        | some e => e
        | none => s + 1
      .ok (s + (e - s) * u)

/-- `OptionsHandler.nonlin_mod` (handlers.py:724-764).  A negative base with a fractional
exponent is a Python complex number: `unmodelled`. -/
def ohNonlinMod (start : Opts K) (opt : String) (kw : OHKw K) : Except Err K :=
  let p := kw.n.getD (6 / 5)
  match startEnd start opt kw with
  | .error e => .error e
  | .ok (s, e) =>
    match kw.iternow, kw.itermax with
    | some i, some m =>
      if m - i < 0 ∨ m < 0 then .error .unmodelled
      else if (m - i = 0 ∧ p < 0) ∨ (m = 0 ∧ p ≠ 0) then .error .zeroDivision
      else .ok (e + (s - e) * (Transc.pow (m - i) p / Transc.pow m p))
    | _, _ => .error .keyError

/-- The strategy table of OptionsHandler (`_get_all_strategies`, handlers.py:56-62). -/
def ohStrategy (name : String) (start : Opts K) (opt : String) (kw : OHKw K) (u : K) :
    Except Err K :=
  if name = "exp_decay" then ohExpDecay start opt kw
  else if name = "lin_variation" then ohLinVariation start opt kw
  else if name = "random" then ohRandom start opt kw u
  else if name = "nonlin_mod" then ohNonlinMod start opt kw
  else .error .keyError

/-- The `for opt in start_opts` loop of `OptionsHandler.__call__` (handlers.py:611-615) over
the remaining items. -/
def ohLoop (strategy : List (String × String)) (start : Opts K) (kw : OHKw K)
    (u : String → K) : Opts K → Except Err (Opts K)
  | [] => .ok []
  | (opt, v) :: rest =>
    match strategy.lookup opt with
    | none =>
      match ohLoop strategy start kw u rest with
      | .error e => .error e
      | .ok r => .ok ((opt, v) :: r)
    | some name =>
      match ohStrategy name start opt kw (u opt) with
      | .error e => .error e
      | .ok v' =>
        match ohLoop strategy start kw u rest with
        | .error e => .error e
        | .ok r => .ok ((opt, v') :: r)

/-- `OptionsHandler.__call__` (handlers.py:606-623). -/
def ohCall (strategy : List (String × String)) (start : Opts K) (kw : OHKw K)
    (u : String → K) : Except Err (Opts K) :=
  if strategy.isEmpty then .ok start else ohLoop strategy start kw u start

end PySwarms
