import Verif.Model.Tuning

/-!
# Shallow copies of an optimizer

`copy.copy(opt)` makes a new object with the same attributes.  None of the optimizers defines
`__copy__`, so the copy refers to the same swarm, the same five history lists, the same two handlers
with a memory and the same topology object.  `optimize` writes into these objects
(global_best.py:197-254, local_best.py:221-283, general_optimizer.py:235-295, binary.py:185-240);
`reset` binds new lists and a new swarm to the attributes of the one object it is called on
(base_single.py:195-212, base_discrete.py:197-214); an assignment to an attribute concerns one
object only.

The objects are numbered; a store says what each contains.
-/

namespace PySwarms

variable {n d : Nat} {K : Type}

/-- The five history lists (base_single.py:196-200, base_discrete.py:198-202); a single number stands
for the five, since they are always bound together. -/
structure Hists (n d : Nat) (K : Type) where
  cost : List (XR K)
  meanPbest : List (XR K)
  meanNeighbor : List (XR K)
  pos : List (Mat n d K)
  velocity : List (Mat n d K)

/-- One optimizer object: its plain attributes (`cfg`) and the numbers of the objects that it refers to
(base_single.py:93-124, 195-212, global_best.py:154-157). -/
structure Handle (n d : Nat) (K : Type) where
  cfg : Config n d K
  swarm : Nat
  hist : Nat
  bh : Nat
  vh : Nat
  top : Nat

/-- All optimizer objects and the store; numbers from `next` on are not in use yet.  With each swarm is
kept what was evaluated with it (base_single.py:195-212). -/
structure Copies (n d : Nat) (K : Type) where
  handles : List (Handle n d K)
  swarms : Nat → Swarm n d K × List (Mat n d K × Costs n K)
  hists : Nat → Hists n d K
  bhs : Nat → Option (Mat n d K)
  vhs : Nat → Option (Mat n d K)
  tops : Nat → TopState n
  openPools : Nat
  next : Nat

/-- What is seen through one optimizer object (base_single.py:93-124). -/
def Copies.view (F : Copies n d K) (h : Handle n d K) : Opt n d K where
  swarm := (F.swarms h.swarm).1
  top := F.tops h.top
  bhMem := F.bhs h.bh
  vhMem := F.vhs h.vh
  costHistory := (F.hists h.hist).cost
  meanPbestHistory := (F.hists h.hist).meanPbest
  meanNeighborHistory := (F.hists h.hist).meanNeighbor
  posHistory := (F.hists h.hist).pos
  velocityHistory := (F.hists h.hist).velocity
  evals := (F.swarms h.swarm).2
  openPools := F.openPools

/-- Write the state `o` into the objects that `h` refers to (base_single.py:93-124). -/
def Copies.store (F : Copies n d K) (h : Handle n d K) (o : Opt n d K) : Copies n d K :=
  { F with
    swarms := Function.update F.swarms h.swarm (o.swarm, o.evals)
    hists := Function.update F.hists h.hist
      ⟨o.costHistory, o.meanPbestHistory, o.meanNeighborHistory, o.posHistory, o.velocityHistory⟩
    bhs := Function.update F.bhs h.bh o.bhMem
    vhs := Function.update F.vhs h.vh o.vhMem
    tops := Function.update F.tops h.top o.top
    openPools := o.openPools }

/-- Make `h` the `i`-th optimizer object, with contents `o`; the number `next` is used up
(base_single.py:93-124). -/
def Copies.put (F : Copies n d K) (i : Nat) (h : Handle n d K) (o : Opt n d K) : Copies n d K :=
  { F.store h o with handles := F.handles.set i h, next := F.next + 1 }

/-- One optimizer and no copy yet (base_single.py:93-124). -/
def Copies.single (cfg : Config n d K) (s : Opt n d K) : Copies n d K where
  handles := [⟨cfg, 0, 0, 0, 0, 0⟩]
  swarms := fun _ => (s.swarm, s.evals)
  hists := fun _ => ⟨s.costHistory, s.meanPbestHistory, s.meanNeighborHistory, s.posHistory,
    s.velocityHistory⟩
  bhs := fun _ => s.bhMem
  vhs := fun _ => s.vhMem
  tops := fun _ => s.top
  openPools := s.openPools
  next := 1

/-- Which object an assignment binds anew: a handler or a topology object
(global_best.py:154-157, general_optimizer.py:190-195). -/
def Tune.rebind (t : Tune n d K) (h : Handle n d K) (fresh : Nat) : Handle n d K :=
  match t with
  | .boundaryHandler _ => { h with bh := fresh }
  | .velocityHandler _ => { h with vh := fresh }
  | .topology _ =>
    match h.cfg.kind with
    | .general _ => { h with top := fresh }
    | _ => h
  | _ => h

/-- A statement of a program that uses the copies; `i` is the number of an optimizer object
(base_single.py:93-124, 147, 173). -/
inductive CopyAct (n d : Nat) (K : Type)
  /-- `copy.copy(opt_i)`, appended to the list of objects -/
  | copy (i : Nat)
  /-- an assignment or a call -/
  | act (i : Nat) (a : Act n d K)

section
variable [Field K] [LinearOrder K] [Transc K] [FloorRing K]

/-- The effect of a statement; exceptions of calls are caught (base_single.py:147, 173-212).  `reset`
binds new lists first and a new swarm if `create_swarm` does not raise. -/
def Copies.step (F : Copies n d K) : CopyAct n d K → Copies n d K
  | .copy i =>
    match F.handles[i]? with
    | none => F
    | some h => { F with handles := F.handles ++ [h] }
  | .act i a =>
    match F.handles[i]? with
    | none => F
    | some h =>
      match a with
      | .set t =>
        let S := tune t (h.cfg, F.view h)
        F.put i { t.rebind h F.next with cfg := S.1 } S.2
      | .call (.optimize ev iters nproc env) =>
        F.put i h (optimize h.cfg ev iters nproc env (F.view h)).1
      | .call (.reset r) =>
        match reset h.cfg r (F.view h) with
        | (o, .error _) => F.put i { h with hist := F.next } o
        | (o, .ok ()) => F.put i { h with hist := F.next, swarm := F.next } o

/-- A program (base_single.py:147, 173). -/
def Copies.run (F : Copies n d K) (prog : List (CopyAct n d K)) : Copies n d K :=
  prog.foldl Copies.step F

end

end PySwarms
