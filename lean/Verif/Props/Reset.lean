import Verif.Lemmas.Sim
import Verif.Props.Topology
import Verif.Examples

/-!
# `reset` (C29)
-/

set_option linter.unusedSectionVars false

namespace PySwarms

variable {n d : Nat} {K : Type} [Field K] [LinearOrder K] [Transc K] [FloorRing K]

/-- The two optimizer objects show the same swarm (positions, velocities, bests, options), the same
five histories, and have made the same evaluations. -/
structure SameVisible (s s' : Opt n d K) : Prop where
  swarm : s.swarm = s'.swarm
  cost : s.costHistory = s'.costHistory
  meanPbest : s.meanPbestHistory = s'.meanPbestHistory
  meanNeighbor : s.meanNeighborHistory = s'.meanNeighborHistory
  pos : s.posHistory = s'.posHistory
  velocity : s.velocityHistory = s'.velocityHistory
  evals : s.evals = s'.evals

/-- Same visible state and same handler memories (while a call is running). -/
def SameInside (cfg : Config n d K) (s s' : Opt n d K) : Prop :=
  SameVisible s s' ∧ s.vhMem = s'.vhMem ∧ (cfg.kind ≠ .binary → s.bhMem = s'.bhMem)

theorem callGbest_forgets (cfg : Config n d K)
    (hk : cfg.kind.top.isStatic = false ∨ cfg.kind.isStar) (o : Oracle n d K) (t t' : TopState n)
    (sw : Swarm n d K) : (callGbest cfg o t sw).2 = (callGbest cfg o t' sw).2 := by
  have hstar : (starGbest t sw).2 = (starGbest t' sw).2 := by
    unfold starGbest
    dsimp only
    split
    · rfl
    · split <;> rfl
  unfold callGbest
  rcases hkk : cfg.kind with _ | st | top | _ <;> rw [hkk] at hk <;>
    simp only [Kind.top, Kind.isStar, or_false, or_true] at hk ⊢
  · exact hstar
  · exact C11_dynamic_forgets _ hk _ _ _ _ _
  · rcases hk with hk | hk
    · exact C11_dynamic_forgets _ hk _ _ _ _ _
    · cases top <;> simp only [Kind.isStar] at hk
      exact hstar
  · exact C11_dynamic_forgets _ hk _ _ _ _ _

theorem SameVisible.refl (s : Opt n d K) : SameVisible s s := ⟨rfl, rfl, rfl, rfl, rfl, rfl, rfl⟩

theorem moveSwarm_same (cfg : Config n d K) (r : Draw n d K) (iters i : Nat) (s s' : Opt n d K)
    (h : SameInside cfg s s') :
    SameInside cfg (moveSwarm cfg r iters i s).1 (moveSwarm cfg r iters i s').1 ∧
      (moveSwarm cfg r iters i s).2 = (moveSwarm cfg r iters i s').2 := by
  obtain ⟨⟨h1, h2, h3, h4, h5, h6, h7⟩, h8, h9⟩ := h
  unfold moveSwarm
  rw [← h1, ← h8]
  cases hc : callOptions cfg iters i r s.swarm with
  | error e => exact ⟨⟨⟨h1, h2, h3, h4, h5, h6, h7⟩, h8, h9⟩, rfl⟩
  | ok o =>
    dsimp only
    generalize computeVelocity { s.swarm with options := o } cfg.clamp cfg.vhStrategy s.vhMem
      (velBounds cfg) r.r1 r.r2 = q
    obtain ⟨vm, e | v⟩ := q
    · exact ⟨⟨⟨rfl, h2, h3, h4, h5, h6, h7⟩, rfl, h9⟩, rfl⟩
    · dsimp only
      by_cases hk : cfg.kind = .binary
      · unfold callPosition
        rw [hk]
        exact ⟨⟨⟨rfl, h2, h3, h4, h5, h6, h7⟩, rfl, fun hb => absurd hk hb⟩, rfl⟩
      · rw [← h9 hk]
        generalize callPosition cfg r s.bhMem { s.swarm with options := o, velocity := v } = q
        obtain ⟨bm, e | p⟩ := q
        · exact ⟨⟨⟨rfl, h2, h3, h4, h5, h6, h7⟩, rfl, fun _ => rfl⟩, rfl⟩
        · exact ⟨⟨⟨rfl, h2, h3, h4, h5, h6, h7⟩, rfl, fun _ => rfl⟩, rfl⟩

theorem optimize_same (cfg : Config n d K) (hk : cfg.kind.top.isStatic = false ∨ cfg.kind.isStar)
    (ev : Nat → Mat n d K → Except Err (Costs n K)) (iters : Nat) (nproc : Option Nat)
    (env : Nat → Draw n d K) (s s' : Opt n d K) (h : SameVisible s s') :
    SameVisible (optimize cfg ev iters nproc env s).1 (optimize cfg ev iters nproc env s').1 ∧
      (optimize cfg ev iters nproc env s).2 = (optimize cfg ev iters nproc env s').2 := by
  have key := optimize_sim cfg cfg ev ev iters nproc env env SameVisible (SameInside cfg) Eq
    (fun s s' h => ?_) (fun s s' h => ⟨h.1, h.2, h.3, h.4, h.5, h.6, h.7⟩) (fun i q s s' h => ?_) (fun s s' h => ?_)
    (fun s s' h => h.1) (fun s s' h => ⟨h.1.1, h.1.2, h.1.3, h.1.4, h.1.5, h.1.6, h.1.7⟩) s s' h
  · refine ⟨key.1, ?_⟩
    have h2 := key.2
    generalize (optimize cfg ev iters nproc env s).2 = o at h2 ⊢
    generalize (optimize cfg ev iters nproc env s').2 = o' at h2 ⊢
    cases o with
    | error e => rw [exRel_error h2]
    | ok v => obtain ⟨v', rfl, rfl⟩ := exRel_ok h2; rfl
  · obtain ⟨h1, h2, h3, h4, h5, h6, h7⟩ := h
    unfold startState prepare SameInside
    rw [h1]
    refine ⟨⟨rfl, h2, h3, h4, h5, h6, h7⟩, rfl, fun hb => ?_⟩
    cases hkk : cfg.kind <;> simp_all
  · apply iterate_sim cfg cfg (ev i) (ev i) (env i) (env i) iters i q (SameInside cfg) _ _ rfl _ s s' h
    · intro s s' h
      obtain ⟨⟨h1, h2, h3, h4, h5, h6, h7⟩, h8, h9⟩ := h
      rw [← h1]
      cases ev i s.swarm.position with
      | error e => rfl
      | ok c =>
        refine ⟨⟨?_, h2, h3, h4, h5, h6, ?_⟩, h8, h9⟩
        · unfold recordEval; rw [h1]
        · unfold recordEval; rw [h1, h7]
    · intro s s' h
      obtain ⟨⟨h1, h2, h3, h4, h5, h6, h7⟩, h8, h9⟩ := h
      refine ⟨⟨⟨h1, h2, h3, h4, h5, h6, h7⟩, h8, h9⟩, ?_⟩
      have hg := callGbest_forgets cfg hk (env i).oracle s.top s'.top s.swarm
      rw [← h1, ← hg]
      cases (callGbest cfg (env i).oracle s.top s.swarm).2 with
      | error e => rfl
      | ok g =>
        refine ⟨⟨⟨?_, ?_, ?_, ?_, ?_, ?_, h7⟩, h8, h9⟩, rfl⟩
        all_goals simp only [recordBest, Opt.populateHistory, h1, h2, h3, h4, h5, h6]
    · intro s s' h
      exact moveSwarm_same cfg (env i) iters i s s' h
  · unfold finish
    rw [h.1.1]
    split
    · rfl
    · split
      · rfl
      · rfl

theorem runOps_same (cfg : Config n d K) (hk : cfg.kind.top.isStatic = false ∨ cfg.kind.isStar)
    (ops : List (Op n d K)) (s s' : Opt n d K) (h : SameVisible s s') :
    SameVisible (runOps cfg s ops) (runOps cfg s' ops) := by
  induction ops generalizing s s' with
  | nil => exact h
  | cons op ops ih =>
    refine ih _ _ ?_
    cases op with
    | optimize ev iters nproc env => exact (optimize_same cfg hk ev iters nproc env s s' h).1
    | reset r =>
      unfold stepOp reset
      dsimp only
      split
      · exact ⟨h.1, rfl, rfl, rfl, rfl, rfl, h.7⟩
      · exact ⟨rfl, rfl, rfl, rfl, rfl, rfl, rfl⟩

/-- **C29.**  For the Star topology and every dynamic topology (so for `GlobalBestPSO`, `BinaryPSO`,
dynamic `LocalBestPSO`, …): take an optimizer `s0` after any history and reset it, with random draws
`r` for the new swarm.  If a constructor call with the same arguments and those draws succeeds, then
so does the reset, and from then on the two objects behave alike: after any sequence of calls they
show the same swarm, histories and evaluations, and any further `optimize` call has the same result
(value or exception) on both. -/
theorem C29_reset (cfg : Config n d K) (hk : cfg.kind.top.isStatic = false ∨ cfg.kind.isStar)
    (s0 new : Opt n d K) (r0 r : InitDraw n d K) (hnew : construct cfg r0 r = .ok new) :
    (reset cfg r s0).2 = .ok () ∧ ∀ ops,
      SameVisible (runOps cfg (reset cfg r s0).1 ops) (runOps cfg new ops) ∧
      ∀ ev iters nproc env,
        (optimize cfg ev iters nproc env (runOps cfg (reset cfg r s0).1 ops)).2 =
          (optimize cfg ev iters nproc env (runOps cfg new ops)).2 := by
  have h0 : (reset cfg r s0).2 = .ok () ∧ SameVisible (reset cfg r s0).1 new := by
    unfold construct at hnew
    split at hnew
    · cases hnew
    · split at hnew
      · cases hnew
      · split at hnew
        · cases hnew
        · split at hnew
          · cases hnew
          · next sw hsw =>
            cases hnew
            unfold reset
            rw [hsw]
            exact ⟨rfl, ⟨rfl, rfl, rfl, rfl, rfl, rfl, rfl⟩⟩
  refine ⟨h0.1, fun ops => ?_⟩
  have h1 := runOps_same cfg hk ops _ _ h0.2
  exact ⟨h1, fun ev iters nproc env => (optimize_same cfg hk ev iters nproc env _ _ h1).2⟩

/-- A k-d tree on the line: the `k` nearest points, ties broken by index. -/
def Ex.lineKnn {n : Nat} (k : Nat) (x : Mat n 1 ℚ) (i : Fin n) : List (Fin n) :=
  ((List.finRange n).foldr (fun a l =>
    l.takeWhile (fun b => decide (|x i 0 - x b 0| < |x i 0 - x a 0|)) ++ a ::
      l.dropWhile (fun b => decide (|x i 0 - x b 0| < |x i 0 - x a 0|))) []).take k

def Ex.lineOk {n : Nat} (k : Nat) (x : Mat n 1 ℚ) : Bool :=
  decide (∀ i, (Ex.lineKnn k x i).length = k ∧ (Ex.lineKnn k x i).Nodup ∧
    (Ex.lineKnn k x i).Pairwise (fun a b => |x i 0 - x a 0| ≤ |x i 0 - x b 0|) ∧
    ∀ a ∈ Ex.lineKnn k x i, ∀ b, b ∉ Ex.lineKnn k x i → |x i 0 - x a 0| ≤ |x i 0 - x b 0|)

theorem Ex.lineOk_isKnn {n k : Nat} {x : Mat n 1 ℚ} (h : Ex.lineOk k x = true) :
    IsKnn (fun x y => |x 0 - y 0|) k x (Ex.lineKnn k x) := by
  unfold Ex.lineOk at h
  have h := of_decide_eq_true h
  exact h

def Ex.lineDraw (n : Nat) : Draw n 1 ℚ :=
  { Ex.draw n 1 with oracle := { (Ex.draw n 1).oracle with knn := fun k _ x i => Ex.lineKnn k x i } }

/-- Initial positions `4 p`, `4 q`, `4 r`. -/
def Ex.init3 (p q r : ℚ) : InitDraw 3 1 ℚ :=
  { Ex.init 3 1 with pos := fun i _ => if i = 0 then p else if i = 1 then q else r }

/-- The objective `-x`. -/
def Ex.down (n : Nat) : Nat → Mat n 1 ℚ → Except Err (Costs n ℚ) := fun _ x =>
  .ok fun i => .fin (-(x i 0))

/-- Non-vacuity of C29: after a run, reset with other draws, and another run, the two optimizers
have both moved and agree (dynamic ring, honest nearest-neighbour lists). -/
example : (match construct (Ex.rcfg 3 1 false 2) (Ex.init3 0 (1/4) (3/4)) (Ex.init3 0 (1/4) (3/4)),
      construct (Ex.rcfg 3 1 false 2) (Ex.init3 0 (1/4) (3/4)) (Ex.init3 0 (1/2) (3/4)) with
    | .ok s, .ok new =>
      let s0 := (optimize (Ex.rcfg 3 1 false 2) (Ex.down 3) 2 none (fun _ => Ex.lineDraw 3) s).1
      let s1 := (reset (Ex.rcfg 3 1 false 2) (Ex.init3 0 (1/2) (3/4)) s0).1
      match optimize (Ex.rcfg 3 1 false 2) (Ex.down 3) 2 none (fun _ => Ex.lineDraw 3) s1,
        optimize (Ex.rcfg 3 1 false 2) (Ex.down 3) 2 none (fun _ => Ex.lineDraw 3) new with
      | (a, .ok (c, _)), (b, .ok (c', _)) =>
        decide (c = c' ∧ a.posHistory.length = 2 ∧ b.posHistory.length = 2 ∧
          a.swarm.position 1 0 = b.swarm.position 1 0 ∧ a.swarm.position 1 0 ≠ 2)
      | _, _ => false
    | _, _ => false) = true := by decide +kernel

/-- **C29** fails for static topologies: a static `LocalBestPSO` with three particles on the line,
run once, is reset; the random draws put the new swarm at 0, 2, 3.  A newly constructed optimizer
with the same draws computes other positions: the old neighbour lists survived the reset.  All
neighbour lists computed are honest nearest-neighbour lists. -/
theorem C29_static_witness :
    ∃ (s s0 new s1 a b : Opt 3 1 ℚ) (v : XR ℚ × Vec 1 ℚ),
      construct (Ex.rcfg 3 1 true 2) (Ex.init3 0 (1/4) (3/4)) (Ex.init3 0 (1/4) (3/4)) = .ok s ∧
      optimize (Ex.rcfg 3 1 true 2) (Ex.down 3) 1 none (fun _ => Ex.lineDraw 3) s = (s0, .ok v) ∧
      reset (Ex.rcfg 3 1 true 2) (Ex.init3 0 (1/2) (3/4)) s0 = (s1, .ok ()) ∧
      construct (Ex.rcfg 3 1 true 2) (Ex.init3 0 (1/4) (3/4)) (Ex.init3 0 (1/2) (3/4)) = .ok new ∧
      (∀ i, s1.swarm.position i 0 = new.swarm.position i 0) ∧
      (optimize (Ex.rcfg 3 1 true 2) (Ex.down 3) 1 none (fun _ => Ex.lineDraw 3) s1).1 = a ∧
      (optimize (Ex.rcfg 3 1 true 2) (Ex.down 3) 1 none (fun _ => Ex.lineDraw 3) new).1 = b ∧
      IsKnn (fun x y => |x 0 - y 0|) 2 s.swarm.position (Ex.lineKnn 2 s.swarm.position) ∧
      IsKnn (fun x y => |x 0 - y 0|) 2 new.swarm.position (Ex.lineKnn 2 new.swarm.position) ∧
      a.swarm.position 1 0 ≠ b.swarm.position 1 0 := by
  have h : (match construct (Ex.rcfg 3 1 true 2) (Ex.init3 0 (1/4) (3/4)) (Ex.init3 0 (1/4) (3/4)),
      construct (Ex.rcfg 3 1 true 2) (Ex.init3 0 (1/4) (3/4)) (Ex.init3 0 (1/2) (3/4)) with
    | .ok s, .ok new =>
      match optimize (Ex.rcfg 3 1 true 2) (Ex.down 3) 1 none (fun _ => Ex.lineDraw 3) s with
      | (s0, .ok _) =>
        match reset (Ex.rcfg 3 1 true 2) (Ex.init3 0 (1/2) (3/4)) s0 with
        | (s1, .ok ()) => decide (
            (∀ i, s1.swarm.position i 0 = new.swarm.position i 0) ∧
            Ex.lineOk 2 s.swarm.position = true ∧ Ex.lineOk 2 new.swarm.position = true ∧
            (optimize (Ex.rcfg 3 1 true 2) (Ex.down 3) 1 none (fun _ => Ex.lineDraw 3) s1).1.swarm.position 1 0 ≠
            (optimize (Ex.rcfg 3 1 true 2) (Ex.down 3) 1 none (fun _ => Ex.lineDraw 3) new).1.swarm.position 1 0)
        | _ => false
      | _ => false
    | _, _ => false) = true := by decide +kernel
  split at h
  · next s new hs hnew =>
    split at h
    · next s0 v ho =>
      split at h
      · next s1 hr =>
        have h := of_decide_eq_true h
        exact ⟨s, s0, new, s1, _, _, v, hs, ho, hr, hnew, h.1, rfl, rfl,
          Ex.lineOk_isKnn h.2.1, Ex.lineOk_isKnn h.2.2.1, h.2.2.2⟩
      · cases h
    · cases h
  · cases h

end PySwarms
