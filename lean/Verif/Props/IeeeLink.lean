import Verif.Lemmas.IeeeLink
import Verif.Props.Rounding
import Verif.Examples

/-!
# C94: where nothing overflows, the model with special values is the rounded one

The relations `SameState` and `SameCall` are spelled out at the top of Lemmas/IeeeLink.lean.
-/

namespace PySwarms

variable {n d : Nat} {K : Type} [Field K] [LinearOrder K] [IsStrictOrderedRing K]

/-- **C94** Where nothing overflows — rounding gives a number, as with an unbounded exponent — a call
of `optimize` in the model with special values does what the rounded model does: the same
evaluations, positions, velocities, bests, histories, exceptions and result, unless the rounded model
has itself left the numbers (division by zero). -/
theorem C94_agrees [FloorRing K] {A : Fpu K} {fl : K → K} (hA : ∀ x, A.rnd x = .fin (fl x))
    {B : Arith n d K} (hB : B.fl = fl) {cfg : Config n d K} (hk : cfg.kind = .globalBest)
    {ev : Nat → Mat n d K → Except Err (Costs n K)} {env : Nat → Draw n d K} {iters : Nat}
    {c : CallX n d K} (hc : SameCall B ev env iters c) {s : Opt n d K} {t : OptX n d K}
    (h : SameState s t) :
    (optimizeR B cfg ev iters none env s).2 = .error .nonFinite ∨
    SameState (optimizeR B cfg ev iters none env s).1 (optimizeX A cfg c iters t).1 ∧
    (optimizeX A cfg c iters t).2 =
      (optimizeR B cfg ev iters none env s).2.map fun r => (r.1, fun j => .fin (r.2 j)) := by
  have h0 : SameState { prepare cfg s with openPools := s.openPools + 0 }
      { t with bhMem := some t.swarm.position, vhMem := some t.swarm.position,
               swarm := { t.swarm with pbestCost := fun _ => XR.pinf } } :=
    ⟨h.position, h.velocity, h.pbestPos, rfl, h.bestPos, h.bestCost,
      by
        show some t.swarm.position = Option.map up (match cfg.kind with
          | .binary => s.bhMem
          | _ => some s.swarm.position)
        rw [hk, h.position]; rfl,
      by show some t.swarm.position = some (up s.swarm.position); rw [h.position],
      h.costHistory, h.evals⟩
  have h1 := loopX_up hA hB hk hc iters 0 [] h0
  unfold optimizeR optimizeX
  rw [if_neg (by simp)]
  simp only [Option.isSome_none, Bool.false_eq_true, if_false]
  revert h1
  generalize loopR B cfg ev env iters iters 0 [] _ = y
  generalize loopX A cfg c iters 0 [] _ = z
  obtain ⟨y1, y2⟩ := y
  obtain ⟨z1, z2⟩ := z
  rintro (h1 | ⟨h1, h2⟩)
  · left
    dsimp only at h1
    subst h1
    rfl
  · dsimp only at h1 h2
    subst h2
    right
    cases z2 with
    | error e => exact ⟨h1, rfl⟩
    | ok u =>
      dsimp only
      unfold finish
      rw [h1.bestCost, h1.pbestCost, h1.pbestPos]
      cases y1.swarm.bestCost with
      | none => exact ⟨h1, rfl⟩
      | some b =>
        cases npArgmin y1.swarm.pbestCost with
        | none => exact ⟨h1, rfl⟩
        | some k => exact ⟨⟨h1.position, h1.velocity, h1.pbestPos, h1.pbestCost, h1.bestPos,
            h1.bestCost, h1.bhMem, h1.vhMem, h1.costHistory, h1.evals⟩, rfl⟩

/-- **C94** With exact arithmetic, the model with special values does what the exact model of the
other properties does. -/
theorem C94_agrees_exact [FloorRing K] [Transc K] {A : Fpu K} (hA : ∀ x, A.rnd x = .fin x)
    {cfg : Config n d K} (hk : cfg.kind = .globalBest)
    {ev : Nat → Mat n d K → Except Err (Costs n K)} {env : Nat → Draw n d K} {iters : Nat}
    {c : CallX n d K} (hc : SameCall (Arith.exact cfg) ev env iters c) {s : Opt n d K}
    {t : OptX n d K} (h : SameState s t) :
    (optimize cfg ev iters none env s).2 = .error .nonFinite ∨
    SameState (optimize cfg ev iters none env s).1 (optimizeX A cfg c iters t).1 ∧
    (optimizeX A cfg c iters t).2 =
      (optimize cfg ev iters none env s).2.map fun r => (r.1, fun j => .fin (r.2 j)) := by
  rw [← optimizeR_exact]
  exact C94_agrees hA rfl hk hc h

/-! ## Non-vacuity -/

namespace Ex

/-- Binary64 without a largest number, and an options handler answering with fixed options. -/
def linkArith : Arith 2 1 ℚ := { fArith 2 1 with oh := fun _ _ _ _ => .ok (fcfg "periodic").options }

/-- The call of the rounded examples, for the model with special values. -/
def linkCall : CallX 2 1 ℚ where
  ev := fun i x => sphere 2 1 i fun k j => match x k j with
    | .fin a => a
    | _ => 0
  env := fun _ => fdraw 2 1
  oh := fun _ => .ok (fcfg "periodic").options

/-- The start of the rounded examples, for the model with special values. -/
def linkStart : OptX 2 1 ℚ where
  swarm :=
    { position := up fstart.swarm.position
      velocity := up fstart.swarm.velocity
      pbestPos := up fstart.swarm.pbestPos
      pbestCost := fstart.swarm.pbestCost
      bestPos := none
      bestCost := fstart.swarm.bestCost }

end Ex

/-- Non-vacuity: the start and the call of the rounded examples meet the hypotheses. -/
example : SameState Ex.fstart Ex.linkStart ∧
    SameCall Ex.linkArith (Ex.sphere 2 1) (fun _ => Ex.fdraw 2 1) 3 Ex.linkCall :=
  ⟨⟨rfl, rfl, rfl, rfl, rfl, rfl, rfl, rfl, rfl, rfl⟩, ⟨fun _ _ => rfl, rfl, fun _ _ => rfl⟩⟩

/-- Non-vacuity: the run in the rounded model returns after three evaluations, so that the second
alternative holds; in binary64 with its largest number the run is the same. -/
example : (["nearest", "reflective", "random", "intermediate", "periodic"].all fun st =>
    match optimizeR Ex.linkArith (Ex.fcfg st) (Ex.sphere 2 1) 3 none (fun _ => Ex.fdraw 2 1)
        Ex.fstart, optimizeX fpu64 (Ex.fcfg st) Ex.linkCall 3 Ex.linkStart with
    | (s, .ok (c, p)), (s', .ok (c', p')) => decide (s.evals.length = 3 ∧ s'.evals.length = 3 ∧
        s'.swarm.velocity = up s.swarm.velocity ∧ c' = c ∧ p' 0 = .fin (p 0))
    | _, _ => false) = true := by decide +kernel

end PySwarms
