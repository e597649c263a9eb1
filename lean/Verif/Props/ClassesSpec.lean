import Verif.Model.Classes

/-! # Specification for C115 -/

namespace PySwarms.Cls

/-- A NumPy array. -/
def Obj.IsArray (o : Obj) : Prop := ∃ sh, o = .ndarray sh

/-- A Python integer or a Boolean, not a NumPy integer. -/
def Obj.IsInt (o : Obj) : Prop := (∃ z, o = .int z) ∨ ∃ b, o = .bool b

/-- A Python float or `np.float64`. -/
def Obj.IsFloat (o : Obj) : Prop := o = .float ∨ o = .npFloat64

/-- Every given argument satisfies `P`. -/
def Given (o : Option Obj) (P : Obj → Prop) : Prop := ∀ a, o = some a → P a

/-- The types `Swarm` asks for. -/
structure SwarmArgs.Typed (a : SwarmArgs) : Prop where
  position : a.position.IsArray
  velocity : a.velocity.IsArray
  nParticles : Given a.nParticles Obj.IsInt
  dimensions : Given a.dimensions Obj.IsInt
  options : Given a.options (· = .dict)
  pbestPos : Given a.pbestPos Obj.IsArray
  bestPos : Given a.bestPos Obj.IsArray
  pbestCost : Given a.pbestCost Obj.IsArray
  bestCost : Given a.bestCost fun o => o.IsInt ∨ o.IsFloat
  currentCost : Given a.currentCost Obj.IsArray

/-- The number of dimensions of an object that has a shape. -/
def Obj.ndim : Obj → Option Nat
  | .ndarray sh => some sh.length
  | .npScalar | .npFloat64 => some 0
  | _ => none

/-- The number of dimensions that the missing arguments `n_particles` and `dimensions` require the
position to have. -/
def SwarmArgs.needed (a : SwarmArgs) : Nat :=
  if a.dimensions = none then 2 else if a.nParticles = none then 1 else 0

/-- The argument given for an attribute. -/
def SwarmArgs.given (a : SwarmArgs) : SwarmAttr → Option Obj
  | .position => some a.position
  | .velocity => some a.velocity
  | .nParticles => a.nParticles
  | .dimensions => a.dimensions
  | .options => a.options
  | .pbestPos => a.pbestPos
  | .bestPos => a.bestPos
  | .pbestCost => a.pbestCost
  | .bestCost => a.bestCost
  | .currentCost => a.currentCost

end PySwarms.Cls
