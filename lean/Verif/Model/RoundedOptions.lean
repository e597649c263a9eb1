import Verif.Model.Rounded
import Verif.Model.Options

/-!
# The option strategies in rounded arithmetic

`pyswarms/backend/handlers.py`: OptionsHandler (lines 549-764) with every `+`, `-`, `*`, `/` rounded.
The iteration numbers are Python integers; a float operation with an integer converts it first, which
is exact up to `2^53`.  Products and quotients of two integers (`d2 * iternow`, integer options) are
exact up to `2^53`, so that rounding them changes nothing.
-/

namespace PySwarms

variable {n d : Nat} {K : Type} [Field K] [LinearOrder K]

/-- `math.exp` and `**` of the machine, which IEEE 754 does not require to be correctly rounded
(handlers.py:661, 756-758). -/
structure MachineMath (K : Type) where
  exp : K → K
  pow : K → K → K

/-- `(start, end)` with the default end values `0.4`, `0.8 * c1`, `1 * c2`
(handlers.py:651-660, 686-695, 744-754) in rounded arithmetic. -/
def startEndR (fl : K → K) (start : Opts K) (opt : String) (kw : OHKw K) : Except Err (K × K) :=
  match start.lookup "c1", start.lookup "c2" with
  | some c1, some c2 =>
    let base : Opts K := [("w", fl (2 / 5)), ("c1", fl (fl (4 / 5) * c1)), ("c2", fl (1 * c2))]
    let e := match kw.endOpts with
      | none => base.lookup opt
      | some eo => match eo.lookup opt with
        | some x => some x
        | none => base.lookup opt
    match start.lookup opt, e with
    | some s, some e => .ok (s, e)
    | _, _ => .error .keyError
  | _, _ => .error .keyError

/-- `OptionsHandler.exp_decay` (handlers.py:625-668) in rounded arithmetic. -/
def ohExpDecayR (fl : K → K) (M : MachineMath K) (start : Opts K) (opt : String) (kw : OHKw K) :
    Except Err K :=
  let d1 := kw.d1.getD (fl (1 / 5))
  let d2 := kw.d2.getD 7
  match startEndR fl start opt kw with
  | .error e => .error e
  | .ok (s, e) =>
    match kw.iternow, kw.itermax with
    | some i, some m =>
      if m = 0 then .error .zeroDivision
      else if fl (1 + fl (fl (d2 * i) / m)) = 0 then .error .zeroDivision
      else .ok (fl (fl (fl (s - e) - d1) * M.exp (fl (1 / fl (1 + fl (fl (d2 * i) / m))))))
    | _, _ => .error .keyError

/-- `OptionsHandler.lin_variation` (handlers.py:670-705) in rounded arithmetic. -/
def ohLinVariationR (fl : K → K) (start : Opts K) (opt : String) (kw : OHKw K) : Except Err K :=
  match startEndR fl start opt kw with
  | .error e => .error e
  | .ok (s, e) =>
    match kw.iternow, kw.itermax with
    | some i, some m =>
      if m = 0 then .error .zeroDivision
      else .ok (fl (e + fl (fl (fl (s - e) * fl (m - i)) / fl m)))
    | _, _ => .error .keyError

/-- `OptionsHandler.random` (handlers.py:707-722) in rounded arithmetic; `u` is `np.random.rand()`. -/
def ohRandomR (fl : K → K) (start : Opts K) (opt : String) (kw : OHKw K) (u : K) : Except Err K :=
  match start.lookup opt with
  | none => .error .keyError
  | some s =>
    match kw.endOpts with
    | none => .error .keyError
    | some eo =>
      let e := match eo.lookup opt with
        | some e => e
        | none => fl (s + 1)
      .ok (fl (s + fl (fl (e - s) * u)))

/-- `OptionsHandler.nonlin_mod` (handlers.py:724-764) in rounded arithmetic; a negative base is
`unmodelled` as in `ohNonlinMod`. -/
def ohNonlinModR (fl : K → K) (M : MachineMath K) (start : Opts K) (opt : String) (kw : OHKw K) :
    Except Err K :=
  let p := kw.n.getD (fl (6 / 5))
  match startEndR fl start opt kw with
  | .error e => .error e
  | .ok (s, e) =>
    match kw.iternow, kw.itermax with
    | some i, some m =>
      if m - i < 0 ∨ m < 0 then .error .unmodelled
      else if (m - i = 0 ∧ p < 0) ∨ M.pow (fl m) p = 0 then .error .zeroDivision
      else .ok (fl (e + fl (fl (s - e) * fl (M.pow (fl (m - i)) p / M.pow (fl m) p))))
    | _, _ => .error .keyError

/-- The strategy table of OptionsHandler (handlers.py:56-62), rounded. -/
def ohStrategyR (fl : K → K) (M : MachineMath K) (name : String) (start : Opts K) (opt : String)
    (kw : OHKw K) (u : K) : Except Err K :=
  if name = "exp_decay" then ohExpDecayR fl M start opt kw
  else if name = "lin_variation" then ohLinVariationR fl start opt kw
  else if name = "random" then ohRandomR fl start opt kw u
  else if name = "nonlin_mod" then ohNonlinModR fl M start opt kw
  else .error .keyError

/-- The loop of `OptionsHandler.__call__` (handlers.py:611-615) over the remaining items, rounded. -/
def ohLoopR (fl : K → K) (M : MachineMath K) (strategy : List (String × String)) (start : Opts K)
    (kw : OHKw K) (u : String → K) : Opts K → Except Err (Opts K)
  | [] => .ok []
  | (opt, v) :: rest =>
    match strategy.lookup opt with
    | none =>
      match ohLoopR fl M strategy start kw u rest with
      | .error e => .error e
      | .ok r => .ok ((opt, v) :: r)
    | some name =>
      match ohStrategyR fl M name start opt kw (u opt) with
      | .error e => .error e
      | .ok v' =>
        match ohLoopR fl M strategy start kw u rest with
        | .error e => .error e
        | .ok r => .ok ((opt, v') :: r)

/-- `OptionsHandler.__call__` (handlers.py:606-623), rounded. -/
def ohCallR (fl : K → K) (M : MachineMath K) (strategy : List (String × String)) (start : Opts K)
    (kw : OHKw K) (u : String → K) : Except Err (Opts K) :=
  if strategy.isEmpty then .ok start else ohLoopR fl M strategy start kw u start

/-- The options update of the optimizers (global_best.py:238-241, local_best.py:267-269,
general_optimizer.py:278-281), rounded; `BinaryPSO` has none. -/
def callOptionsR (fl : K → K) (M : MachineMath K) (cfg : Config n d K) (iters i : Nat)
    (r : Draw n d K) (s : Swarm n d K) : Except Err (Opts K) :=
  match cfg.kind with
  | .binary => .ok s.options
  | _ => ohCallR fl M cfg.ohStrategy cfg.options
      { iternow := some (i : K), itermax := some (iters : K) } r.oh

end PySwarms
