import Verif.Basic

/-!
# The attrs classes

`Swarm` (backend/swarms.py), `Designer`, `Animator` and `Mesher`
(utils/plotters/formatters.py) are attrs classes.  Their generated `__init__` binds the attributes
in the order of their definition, computing the defaults on the way, and then runs the validators in
the same order.  Objects are represented by what `isinstance` and `.shape` say about them.
-/

namespace PySwarms.Cls

/-- Python and NumPy objects, as far as the classes look at them (swarms.py:84-121,
formatters.py:60-167). -/
inductive Obj
  | ndarray (shape : List Nat)
  /-- A NumPy scalar such as `np.int64(3)`, `np.float32(1)`: it has the shape `()`. -/
  | npScalar
  /-- `np.float64(1)`: a NumPy scalar that also is a Python float. -/
  | npFloat64
  | int (z : Int)
  | bool (b : Bool)
  | float
  | str
  | list
  | tuple
  | dict
  | pyNone
  | colormap
  | other
  deriving DecidableEq, Repr

/-- The classes the validators name (swarms.py:84-106, formatters.py:60-167). -/
inductive Class
  | ndarray | int | float | bool | dict | str | list | tuple | colormap
  deriving DecidableEq, Repr

/-- `isinstance(o, c)` (e.g. swarms.py:84): `bool` is a subclass of `int` and `np.float64` one of
`float`; NumPy's integers are not Python integers. -/
def isInstance : Obj → Class → Bool
  | .ndarray _, .ndarray => true
  | .npFloat64, .float => true
  | .int _, .int => true
  | .bool _, .int => true
  | .bool _, .bool => true
  | .float, .float => true
  | .str, .str => true
  | .list, .list => true
  | .tuple, .tuple => true
  | .dict, .dict => true
  | .colormap, .colormap => true
  | _, _ => false

/-- `instance_of(cs)` as a validator: raises `TypeError` (e.g. swarms.py:84, 103). -/
def validate (o : Obj) (cs : List Class) : Except Err Unit :=
  if cs.any (isInstance o) then .ok () else .error .typeError

/-- `o.shape[k]` (swarms.py:113, 117): objects without the attribute raise `AttributeError`, an
index beyond the last dimension raises `IndexError`. -/
def shapeAt (o : Obj) (k : Nat) : Except Err Obj :=
  match o with
  | .ndarray sh =>
    match sh[k]? with
    | some m => .ok (.int m)
    | none => .error .indexError
  | .npScalar | .npFloat64 => .error .indexError
  | _ => .error .attributeError

/-- Arguments of `Swarm(...)`; `none`: not given (swarms.py:84-107). -/
structure SwarmArgs where
  position : Obj
  velocity : Obj
  nParticles : Option Obj := none
  dimensions : Option Obj := none
  options : Option Obj := none
  pbestPos : Option Obj := none
  bestPos : Option Obj := none
  pbestCost : Option Obj := none
  bestCost : Option Obj := none
  currentCost : Option Obj := none

/-- The attributes of a `Swarm` (swarms.py:84-107). -/
structure SwarmObj where
  position : Obj
  velocity : Obj
  nParticles : Obj
  dimensions : Obj
  options : Obj
  pbestPos : Obj
  bestPos : Obj
  pbestCost : Obj
  bestCost : Obj
  currentCost : Obj
  deriving DecidableEq, Repr

/-- `Swarm.__init__` (swarms.py:84-121). -/
def swarmInit (a : SwarmArgs) : Except Err SwarmObj := do
  let nParticles ← match a.nParticles with
    | some o => pure o
    | none => shapeAt a.position 0
  let dimensions ← match a.dimensions with
    | some o => pure o
    | none => shapeAt a.position 1
  let options := a.options.getD .dict
  let pbestPos := a.pbestPos.getD a.position
  let bestPos := a.bestPos.getD (.ndarray [0])
  let pbestCost := a.pbestCost.getD (.ndarray [0])
  let bestCost := a.bestCost.getD .float
  let currentCost := a.currentCost.getD (.ndarray [0])
  validate a.position [.ndarray]
  validate a.velocity [.ndarray]
  validate nParticles [.int]
  validate dimensions [.int]
  validate options [.dict]
  validate pbestPos [.ndarray]
  validate bestPos [.ndarray]
  validate pbestCost [.ndarray]
  validate bestCost [.int, .float]
  validate currentCost [.ndarray]
  return { position := a.position, velocity := a.velocity, nParticles, dimensions, options,
           pbestPos, bestPos, pbestCost, bestCost, currentCost }

/-- Attributes of a swarm that can be assigned (swarms.py:84-107). -/
inductive SwarmAttr
  | position | velocity | nParticles | dimensions | options | pbestPos | bestPos | pbestCost
  | bestCost | currentCost
  deriving DecidableEq, Repr

/-- Reading an attribute (swarms.py:84-107). -/
def SwarmObj.get (s : SwarmObj) : SwarmAttr → Obj
  | .position => s.position
  | .velocity => s.velocity
  | .nParticles => s.nParticles
  | .dimensions => s.dimensions
  | .options => s.options
  | .pbestPos => s.pbestPos
  | .bestPos => s.bestPos
  | .pbestCost => s.pbestCost
  | .bestCost => s.bestCost
  | .currentCost => s.currentCost

/-- `swarm.attr = o`: attrs 18.1 runs no validator here (swarms.py:17, plain `@attrs`; the
optimizers assign in this way, e.g. global_best.py:199-246). -/
def SwarmObj.set (s : SwarmObj) (o : Obj) : SwarmAttr → SwarmObj
  | .position => { s with position := o }
  | .velocity => { s with velocity := o }
  | .nParticles => { s with nParticles := o }
  | .dimensions => { s with dimensions := o }
  | .options => { s with options := o }
  | .pbestPos => { s with pbestPos := o }
  | .bestPos => { s with bestPos := o }
  | .pbestCost => { s with pbestCost := o }
  | .bestCost => { s with bestCost := o }
  | .currentCost => { s with currentCost := o }

/-- `Designer.__init__` (formatters.py:60-78). -/
def designerInit (figsize titleFontsize textFontsize legend label limits colormap : Option Obj) :
    Except Err Unit := do
  validate (figsize.getD .tuple) [.tuple]
  validate (titleFontsize.getD .str) [.str, .int, .float]
  validate (textFontsize.getD .str) [.str, .int, .float]
  validate (legend.getD .str) [.str]
  validate (label.getD .list) [.str, .list, .tuple]
  validate (limits.getD .list) [.list, .tuple]
  validate (colormap.getD .colormap) [.colormap]

/-- `Animator.__init__` (formatters.py:112-114); `repeat_delay` is not validated. -/
def animatorInit (interval repeatDelay rep : Option Obj) : Except Err Unit := do
  let _ := repeatDelay.getD .pyNone
  validate (interval.getD (.int 80)) [.int]
  validate (rep.getD (.bool true)) [.bool]

/-- `Mesher.__init__` (formatters.py:159-167); `func`, `delta` and `levels` are not validated. -/
def mesherInit (func : Obj) (delta limits levels alpha : Option Obj) : Except Err Unit := do
  let _ := (func, delta.getD .float, levels.getD (.ndarray [58]))
  validate (limits.getD .list) [.list, .tuple]
  validate (alpha.getD .float) [.float]

end PySwarms.Cls
