import Verif.Lemmas.Particles
import Verif.Lemmas.Runs
import Verif.Examples
import Mathlib.Logic.Equiv.Basic

/-!
# No particle is special (C71); the specialised optimizers are the general one (C70)
-/

set_option linter.unusedSectionVars false

namespace PySwarms

variable {n d : Nat} {K : Type} [Field K] [LinearOrder K] [Transc K] [FloorRing K]

/-! ## C70 -/

/-- Two configurations whose optimizers call the same functions in the same way. -/
theorem iterate_kind (cfg cfg' : Config n d K)
    (hg : ∀ (o : Oracle n d K) (t : TopState n) (s : Swarm n d K),
      callGbest cfg o t s = callGbest cfg' o t s)
    (hb : cfg.kind ≠ .binary) (hb' : cfg'.kind ≠ .binary)
    (he : { cfg with kind := .globalBest } = ({ cfg' with kind := .globalBest } : Config n d K))
    (ev : Mat n d K → Except Err (Costs n K)) (r : Draw n d K) (iters i : Nat) (q : List Bool)
    (s : Opt n d K) : iterate cfg ev r iters i q s = iterate cfg' ev r iters i q s := by
  obtain ⟨k, o, a, b, c, ce, ip, oh, bh, vh, ft, fi⟩ := cfg
  obtain ⟨k', o', a', b', c', ce', ip', oh', bh', vh', ft', fi'⟩ := cfg'
  simp only [Config.mk.injEq, true_and] at he
  obtain ⟨rfl, rfl, rfl, rfl, rfl, rfl, rfl, rfl, rfl, rfl, rfl⟩ := he
  have hm : ∀ s, moveSwarm ⟨k, o, a, b, c, ce, ip, oh, bh, vh, ft, fi⟩ r iters i s =
      moveSwarm ⟨k', o, a, b, c, ce, ip, oh, bh, vh, ft, fi⟩ r iters i s := by
    intro s
    unfold moveSwarm callOptions velBounds callPosition
    cases k <;> cases k' <;> first | exact absurd rfl hb | exact absurd rfl hb' | rfl
  unfold iterate
  simp only [hg, hm]
  rfl

/-- Constructors, calls and histories of two configurations differing in the class only. -/
theorem kind_same (cfg cfg' : Config n d K)
    (hg : ∀ (o : Oracle n d K) (t : TopState n) (s : Swarm n d K),
      callGbest cfg o t s = callGbest cfg' o t s)
    (hb : cfg.kind ≠ .binary) (hb' : cfg'.kind ≠ .binary)
    (he : { cfg with kind := .globalBest } = ({ cfg' with kind := .globalBest } : Config n d K)) :
    (∀ ev iters nproc env s, optimize cfg ev iters nproc env s = optimize cfg' ev iters nproc env s) ∧
    (∀ r s, reset cfg r s = reset cfg' r s) ∧
    ∀ s ops, runOps cfg s ops = runOps cfg' s ops := by
  have hit := iterate_kind cfg cfg' hg hb hb' he
  have hl : ∀ ev env iters m i q s, loop cfg ev env iters m i q s =
      loop cfg' ev env iters m i q s := by
    intro ev env iters m
    induction m with
    | zero => intros; rfl
    | succ m ih =>
      intro i q s
      unfold loop
      rw [hit]
      simp only [ih]
  have hp : ∀ s, prepare cfg s = prepare cfg' s := by
    intro s
    unfold prepare
    cases hk : cfg.kind <;> cases hk' : cfg'.kind <;>
      first | exact absurd hk hb | exact absurd hk' hb' | rfl
  have ho : ∀ ev iters nproc env s,
      optimize cfg ev iters nproc env s = optimize cfg' ev iters nproc env s := by
    intro ev iters nproc env s
    unfold optimize
    simp only [hl, hp]
  have hr : ∀ r s, reset cfg r s = reset cfg' r s := by
    intro r s
    unfold reset resetSwarm Config.isBinary
    obtain ⟨k, o, a, b, c, ce, ip, oh, bh, vh, ft, fi⟩ := cfg
    obtain ⟨k', o', a', b', c', ce', ip', oh', bh', vh', ft', fi'⟩ := cfg'
    simp only [Config.mk.injEq, true_and] at he
    obtain ⟨rfl, rfl, rfl, rfl, rfl, rfl, rfl, rfl, rfl, rfl, rfl⟩ := he
    cases k <;> cases k' <;> first | exact absurd rfl hb | exact absurd rfl hb' | rfl
  refine ⟨ho, hr, fun s ops => ?_⟩
  unfold runOps
  congr 1
  funext s op
  cases op with
  | optimize ev iters nproc env => exact congrArg Prod.fst (ho _ _ _ _ _)
  | reset r => exact congrArg Prod.fst (hr _ _)

/-- **C70.**  `GeneralOptimizerPSO(topology=Star())` is `GlobalBestPSO`: constructed with the same
arguments and the same random numbers, the constructor has the same outcome, every sequence of calls
leaves the same state, and every call has the same outcome, exceptions included. -/
theorem C70_star (cfg cfg' : Config n d K) (hk : cfg.kind = .globalBest)
    (hk' : cfg' = { cfg with kind := .general .star }) :
    (∀ r1 r2, construct cfg' r1 r2 = construct cfg r1 r2) ∧
    (∀ s ops, runOps cfg' s ops = runOps cfg s ops) ∧
    ∀ ev iters nproc env s,
      optimize cfg' ev iters nproc env s = optimize cfg ev iters nproc env s := by
  have h := kind_same cfg' cfg
    (by intro o t s; subst hk'; unfold callGbest; rw [hk]; rfl)
    (by subst hk'; simp) (by rw [hk]; simp) (by subst hk'; rfl)
  refine ⟨fun r1 r2 => ?_, h.2.2, h.1⟩
  subst hk'
  unfold construct resetSwarm Config.isBinary
  rw [hk]
  rfl

/-- **C70.**  `GeneralOptimizerPSO(topology=Ring(static=st))` is `LocalBestPSO(static=st)`: if both
options `k` and `p` are given (otherwise LocalBestPSO's constructor raises `KeyError`), the
constructor has the same outcome, every sequence of calls leaves the same state, and every call has
the same outcome, exceptions included. -/
theorem C70_ring (cfg cfg' : Config n d K) (st : Bool) (hk : cfg.kind = .localBest st)
    (hk' : cfg' = { cfg with kind := .general (.ring st) }) :
    (∀ r1 r2, cfg.args.k ≠ none → cfg.args.p ≠ none →
      construct cfg' r1 r2 = construct cfg r1 r2) ∧
    (∀ r1 r2, cfg.args.k = none ∨ cfg.args.p = none → construct cfg r1 r2 = .error .keyError) ∧
    (∀ s ops, runOps cfg' s ops = runOps cfg s ops) ∧
    ∀ ev iters nproc env s,
      optimize cfg' ev iters nproc env s = optimize cfg ev iters nproc env s := by
  have h := kind_same cfg' cfg
    (by intro o t s; subst hk'; unfold callGbest; rw [hk]; rfl)
    (by subst hk'; simp) (by rw [hk]; simp) (by subst hk'; rfl)
  refine ⟨fun r1 r2 h1 h2 => ?_, fun r1 r2 h1 => ?_, h.2.2, h.1⟩
  · subst hk'
    unfold construct resetSwarm Config.isBinary
    rw [hk]
    cases hak : cfg.args.k with
    | none => exact absurd hak h1
    | some k =>
      cases hap : cfg.args.p with
      | none => exact absurd hap h2
      | some p => rfl
  · unfold construct
    rw [hk, if_pos]
    rcases h1 with h1 | h1 <;> simp [Kind.needsKP, h1]

/-- Without `k`, GeneralOptimizerPSO with a ring is constructed, and its first iteration raises
`TypeError`. -/
theorem C70_ring_missing (cfg : Config n d K) (st : Bool) (hk : cfg.kind = .general (.ring st))
    (ha : cfg.args.k = none ∨ cfg.args.p = none) (ev : Nat → Mat n d K → Except Err (Costs n K))
    (iters : Nat) (hi : 0 < iters) (nproc : Option Nat) (hp : nproc ≠ some 0)
    (env : Nat → Draw n d K) (s : Opt n d K) (c : Costs n K)
    (hc : ev 0 s.swarm.position = .ok c) :
    (optimize cfg ev iters nproc env s).2 = .error .typeError := by
  obtain ⟨m, rfl⟩ : ∃ m, iters = m + 1 := ⟨iters - 1, by omega⟩
  have hg : ∀ (o : Oracle n d K) t s, callGbest cfg o t s = (t, .error .typeError) := by
    intro o t s
    unfold callGbest computeGbest
    rw [hk]
    rcases ha with ha | ha
    · simp [ha]
    · rw [ha]
      cases cfg.args.k <;> rfl
  unfold optimize
  rw [if_neg hp]
  dsimp only
  unfold loop iterate
  have hpos : (prepare cfg s).swarm.position = s.swarm.position := rfl
  dsimp only
  rw [hpos, hc]
  dsimp only
  rw [hg]

/-- Non-vacuity of C70: both rings run and move, and a ring without `p` fails in its first
iteration. -/
example : (match construct (Ex.rcfg 3 1 false 2) (Ex.init 3 1) (Ex.init 3 1),
      construct { Ex.rcfg 3 1 false 2 with kind := .general (.ring false) } (Ex.init 3 1)
        (Ex.init 3 1) with
    | .ok s, .ok s' =>
      match optimize (Ex.rcfg 3 1 false 2) (Ex.sphere 3 1) 3 none (fun _ => Ex.draw 3 1) s,
        optimize { Ex.rcfg 3 1 false 2 with kind := .general (.ring false) } (Ex.sphere 3 1) 3 none
          (fun _ => Ex.draw 3 1) s',
        optimize { Ex.rcfg 3 1 false 2 with kind := .general (.ring false), args := { k := some 2 } }
          (Ex.sphere 3 1) 3 none (fun _ => Ex.draw 3 1) s' with
      | (t, .ok (c, _)), (t', .ok (c', _)), (_, .error e) =>
        decide (c = c' ∧ t'.swarm.position 2 0 = t.swarm.position 2 0 ∧
          t.swarm.position 2 0 ≠ s.swarm.position 2 0 ∧ e = .typeError)
      | _, _, _ => false
    | _, _ => false) = true := by decide +kernel

/-! ## C71 -/

/-- The constructor arguments in the new numbering: only `init_pos` mentions particles. -/
def Config.renumber (π : Equiv.Perm (Fin n)) (cfg : Config n d K) : Config n d K :=
  { cfg with initPos := cfg.initPos.map (pick π) }

/-- The random numbers and the answers of the external libraries in the new numbering: the draws of
each particle go with the particle; the shared draws are unchanged. -/
def Draw.renumber (π : Equiv.Perm (Fin n)) (r : Draw n d K) : Draw n d K :=
  { r with
    r1 := pick π r.r1
    r2 := pick π r.r2
    oracle := {
      knn := fun k p x => pickNbr π (r.oracle.knn k p (pick π.symm x))
      delaunay := fun x => (r.oracle.delaunay (pick π.symm x)).map (pickNbr π)
      choice := fun k => pickNbr π (r.oracle.choice k) } }

/-- The draws of a swarm creation in the new numbering. -/
def InitDraw.renumber (π : Equiv.Perm (Fin n)) (r : InitDraw n d K) : InitDraw n d K :=
  ⟨pick π r.pos, pick π r.bits, pick π r.argsort, pick π r.vel⟩

/-- The objective in the new numbering: it reads the particles in the old order and returns the
costs in the new one. -/
def renumberEv (π : Equiv.Perm (Fin n)) (ev : Nat → Mat n d K → Except Err (Costs n K)) :
    Nat → Mat n d K → Except Err (Costs n K) :=
  fun k x => (ev k (pick π.symm x)).map (pick π)

/-- An API call in the new numbering. -/
def Op.renumber (π : Equiv.Perm (Fin n)) : Op n d K → Op n d K
  | .optimize ev iters nproc env =>
    .optimize (renumberEv π ev) iters nproc fun i => (env i).renumber π
  | .reset r => .reset (r.renumber π)

/-- The second optimizer is the first one with its particles renumbered: particle `i` of the second
is particle `π i` of the first in the swarm and in all histories; everything that does not
mention particles is equal. -/
structure Renumbered (π : Equiv.Perm (Fin n)) (s s' : Opt n d K) : Prop where
  swarm : SwarmPick π s.swarm s'.swarm
  top : TopPick π s.top s'.top
  bhMem : s'.bhMem = s.bhMem.map (pick π)
  vhMem : s'.vhMem = s.vhMem.map (pick π)
  cost : s'.costHistory = s.costHistory
  meanPbest : s'.meanPbestHistory = s.meanPbestHistory
  meanNeighbor : s'.meanNeighborHistory = s.meanNeighborHistory
  pos : s'.posHistory = s.posHistory.map (pick π)
  velocity : s'.velocityHistory = s.velocityHistory.map (pick π)
  evals : s'.evals = s.evals.map fun e => (pick π e.1, pick π e.2)
  pools : s'.openPools = s.openPools

/-- All costs in the log are below `+inf`, and equal costs were found at equal positions. -/
def Distinct (E : List (Mat n d K × Costs n K)) : Prop :=
  (∀ e ∈ E, ∀ i, XR.lt (e.2 i) XR.pinf = true) ∧
    ∀ e ∈ E, ∀ f ∈ E, ∀ i j, e.2 i = f.2 j → e.1 i = f.1 j

/-- Every personal best below `+inf` is in the log. -/
def InLog (s : Opt n d K) : Prop :=
  ∀ i, s.swarm.pbestCost i ≠ XR.nan ∧ (XR.lt (s.swarm.pbestCost i) XR.pinf = true →
    ∃ e ∈ s.evals, e.1 i = s.swarm.pbestPos i ∧ e.2 i = s.swarm.pbestCost i)

theorem inLog_recordEval {s : Opt n d K} (h : InLog s) (c : Costs n K) :
    InLog (recordEval c s) := by
  intro i
  rw [recordEval_pbestCost, recordEval_pbestPos]
  have he : (recordEval c s).evals = s.evals ++ [(s.swarm.position, c)] := rfl
  rw [he]
  by_cases hl : XR.lt (c i) (s.swarm.pbestCost i) = true
  · simp only [hl, if_true]
    exact ⟨XR.left_ne_nan hl, fun _ => ⟨(s.swarm.position, c), by simp, rfl, rfl⟩⟩
  · simp only [hl]
    refine ⟨(h i).1, fun h2 => ?_⟩
    obtain ⟨e, he, h3⟩ := (h i).2 h2
    exact ⟨e, by simp [he], h3⟩

theorem untied_recordEval {s : Opt n d K} (h : InLog s) (c : Costs n K)
    (hd : Distinct (recordEval c s).evals) : Untied (recordEval c s).swarm := by
  have h' := inLog_recordEval h c
  have hinf : ∀ i, XR.lt ((recordEval c s).swarm.pbestCost i) XR.pinf = true := by
    intro i
    have hci : XR.lt (c i) XR.pinf = true :=
      hd.1 (s.swarm.position, c) (by simp [recordEval]) i
    have := recordEval_not_better c s (fun i => (h i).1) i
    exact XR.lt_of_not_lt_of_lt (h' i).1 this hci
  refine ⟨fun i => (h' i).1, fun i j hij => ?_⟩
  obtain ⟨e, he, e1, e2⟩ := (h' i).2 (hinf i)
  obtain ⟨f, hf, f1, f2⟩ := (h' j).2 (hinf j)
  rw [← e1, ← f1]
  exact hd.2 e he f hf i j (by rw [e2, f2, hij])

theorem distinct_sub {E F : List (Mat n d K × Costs n K)} (h : Distinct F) (hs : E ⊆ F) :
    Distinct E :=
  ⟨fun e he => h.1 e (hs he), fun e he f hf => h.2 e (hs he) f (hs hf)⟩

theorem npMean_pick (π : Equiv.Perm (Fin n)) (c : Costs n K) : npMean (pick π c) = npMean c := by
  unfold npMean
  split
  · rfl
  · congr 1
    have : RightCommutative fun (acc x : XR K) => XR.add acc x := ⟨by
      intro a b c
      cases a <;> cases b <;> cases c <;> simp [XR.add, add_right_comm]⟩
    have h1 : ∀ (l : List (Fin n)) (c : Costs n K) (z : XR K),
        l.foldl (fun acc i => XR.add acc (c i)) z = (l.map c).foldl (fun acc x => XR.add acc x) z := by
      intro l c z
      rw [List.foldl_map]
    rw [h1, h1]
    have e : (List.finRange n).map (pick π c) = ((List.finRange n).map π).map c := by
      rw [List.map_map]
      rfl
    rw [e]
    exact ((finRange_perm π).map c).foldl_eq _

theorem recordEval_ren {π : Equiv.Perm (Fin n)} {s s' : Opt n d K} (h : Renumbered π s s')
    (c : Costs n K) : Renumbered π (recordEval c s) (recordEval (pick π c) s') := by
  have hs := h.swarm
  refine ⟨⟨hs.position, hs.velocity, hs.options, ?_, ?_, hs.bestPos, hs.bestCost, rfl⟩, h.top,
    h.bhMem, h.vhMem, h.cost, h.meanPbest, h.meanNeighbor, h.pos, h.velocity, ?_, h.pools⟩
  · funext i
    rw [recordEval_pbestPos]
    unfold pick
    rw [recordEval_pbestPos, hs.pbestCost, hs.pbestPos, hs.position]
    rfl
  · funext i
    rw [recordEval_pbestCost]
    unfold pick
    rw [recordEval_pbestCost, hs.pbestCost]
    rfl
  · show s'.evals ++ [(s'.swarm.position, pick π c)] = _
    rw [h.evals, hs.position]
    show _ = (s.evals ++ [(s.swarm.position, c)]).map _
    rw [List.map_append]
    rfl

theorem recordBest_ren {π : Equiv.Perm (Fin n)} {s s' : Opt n d K} (h : Renumbered π s s')
    {t t' : TopState n} (ht : TopPick π t t') (g : GBest n d K) :
    Renumbered π (recordBest t g s) (recordBest t' (g.1.pick π, g.2) s') := by
  have hs := h.swarm
  refine ⟨⟨hs.position, hs.velocity, hs.options, hs.pbestPos, hs.pbestCost, rfl, rfl,
    hs.currentCost⟩, ht, h.bhMem, h.vhMem, ?_, ?_, ?_, ?_, ?_, h.evals, h.pools⟩
  · show s'.costHistory ++ _ = s.costHistory ++ _
    rw [h.cost]
    rfl
  · show s'.meanPbestHistory ++ [npMean s'.swarm.pbestCost] =
      s.meanPbestHistory ++ [npMean s.swarm.pbestCost]
    rw [h.meanPbest, hs.pbestCost, npMean_pick]
  · show s'.meanNeighborHistory ++ _ = s.meanNeighborHistory ++ _
    rw [h.meanNeighbor]
    rfl
  · show s'.posHistory ++ [s'.swarm.position] = (s.posHistory ++ [s.swarm.position]).map _
    rw [h.pos, hs.position, List.map_append]
    rfl
  · show s'.velocityHistory ++ [s'.swarm.velocity] = (s.velocityHistory ++ [s.swarm.velocity]).map _
    rw [h.velocity, hs.velocity, List.map_append]
    rfl

theorem computeVelocity_pick {π : Equiv.Perm (Fin n)} {s s' : Swarm n d K} (h : SwarmPick π s s')
    (clamp : Option (Clamp d K)) (st : String) (mem : Option (Mat n d K))
    (b : Option (Bounds d K)) (r1 r2 : Mat n d K) :
    computeVelocity s' clamp st (mem.map (pick π)) b (pick π r1) (pick π r2) =
      ((computeVelocity s clamp st mem b r1 r2).1.map (pick π),
        (computeVelocity s clamp st mem b r1 r2).2.map (pick π)) := by
  unfold computeVelocity
  rw [h.options]
  split
  · next c1 c2 w _ _ _ =>
    have ht : tempVelocity c1 c2 w (pick π r1) (pick π r2) s' =
        pick π (tempVelocity c1 c2 w r1 r2 s) := by
      funext i j
      unfold tempVelocity pick
      rw [h.velocity, h.pbestPos, h.position, h.bestPos]
      cases s.bestPos <;> rfl
    dsimp only
    rw [ht, h.position, vhCall_pick, h.bestPos]
    generalize vhCall st mem clamp ⟨some s.position, some b, none⟩
      (tempVelocity c1 c2 w r1 r2 s) = o
    obtain ⟨m, o⟩ := o
    cases s.bestPos with
    | empty =>
      dsimp only [BestPos.pick]
      split
      · rfl
      · split
        · split
          · rfl
          · cases o <;> rfl
        · rfl
    | single v => rfl
    | perParticle v => rfl
  · rfl

theorem moveSwarm_ren {π : Equiv.Perm (Fin n)} (cfg : Config n d K) (r : Draw n d K)
    (iters i : Nat) {s s' : Opt n d K} (h : Renumbered π s s') :
    Renumbered π (moveSwarm cfg r iters i s).1
        (moveSwarm (cfg.renumber π) (r.renumber π) iters i s').1 ∧
      (moveSwarm (cfg.renumber π) (r.renumber π) iters i s').2 = (moveSwarm cfg r iters i s).2 := by
  have hs := h.swarm
  have ho : callOptions (cfg.renumber π) iters i (r.renumber π) s'.swarm =
      callOptions cfg iters i r s.swarm := by
    unfold callOptions
    show (match cfg.kind with | .binary => _ | _ => _) = _
    cases cfg.kind <;> first | rfl | (exact congrArg _ hs.options)
  unfold moveSwarm
  rw [ho]
  cases callOptions cfg iters i r s.swarm with
  | error e => exact ⟨h, rfl⟩
  | ok o =>
    dsimp only
    have h1 : SwarmPick π { s.swarm with options := o } { s'.swarm with options := o } :=
      ⟨hs.position, hs.velocity, rfl, hs.pbestPos, hs.pbestCost, hs.bestPos, hs.bestCost,
        hs.currentCost⟩
    have hv := computeVelocity_pick h1 cfg.clamp cfg.vhStrategy s.vhMem (velBounds cfg) r.r1 r.r2
    have hv' : computeVelocity { s'.swarm with options := o } (cfg.renumber π).clamp
        (cfg.renumber π).vhStrategy s'.vhMem (velBounds (cfg.renumber π)) (r.renumber π).r1
        (r.renumber π).r2 =
        ((computeVelocity { s.swarm with options := o } cfg.clamp cfg.vhStrategy s.vhMem
          (velBounds cfg) r.r1 r.r2).1.map (pick π),
        (computeVelocity { s.swarm with options := o } cfg.clamp cfg.vhStrategy s.vhMem
          (velBounds cfg) r.r1 r.r2).2.map (pick π)) := by
      rw [h.vhMem]
      exact hv
    rw [hv']
    generalize computeVelocity { s.swarm with options := o } cfg.clamp cfg.vhStrategy s.vhMem
      (velBounds cfg) r.r1 r.r2 = q
    obtain ⟨vm, q⟩ := q
    cases q with
    | error e =>
      exact ⟨⟨h1, h.top, h.bhMem, rfl, h.cost, h.meanPbest, h.meanNeighbor, h.pos, h.velocity,
        h.evals, h.pools⟩, rfl⟩
    | ok v =>
      dsimp only [Except.map]
      have hp : callPosition (cfg.renumber π) (r.renumber π) s'.bhMem
          { s'.swarm with options := o, velocity := pick π v } =
          ((callPosition cfg r s.bhMem { s.swarm with options := o, velocity := v }).1.map (pick π),
            (callPosition cfg r s.bhMem
              { s.swarm with options := o, velocity := v }).2.map (pick π)) := by
        have hc : computePosition { s'.swarm with options := o, velocity := pick π v } cfg.bounds
            cfg.bhStrategy s'.bhMem r.bh =
            ((computePosition { s.swarm with options := o, velocity := v } cfg.bounds
              cfg.bhStrategy s.bhMem r.bh).1.map (pick π),
            (computePosition { s.swarm with options := o, velocity := v } cfg.bounds
              cfg.bhStrategy s.bhMem r.bh).2.map (pick π)) := by
          unfold computePosition
          dsimp only
          rw [hs.position, h.bhMem]
          cases cfg.bounds with
          | none => rfl
          | some b => exact bhCall_pick π cfg.bhStrategy s.bhMem b r.bh (fun i j => s.swarm.position i j + v i j)
        unfold callPosition
        show (match cfg.kind with | .binary => _ | _ => _) = _
        cases cfg.kind with
        | binary =>
          dsimp only
          rw [h.bhMem]
          rfl
        | globalBest => exact hc
        | localBest st => exact hc
        | general t => exact hc
      rw [hp]
      generalize callPosition cfg r s.bhMem { s.swarm with options := o, velocity := v } = q
      obtain ⟨bm, q⟩ := q
      cases q with
      | error e =>
        exact ⟨⟨⟨hs.position, rfl, rfl, hs.pbestPos, hs.pbestCost, hs.bestPos, hs.bestCost,
          hs.currentCost⟩, h.top, rfl, rfl, h.cost, h.meanPbest, h.meanNeighbor, h.pos, h.velocity,
          h.evals, h.pools⟩, rfl⟩
      | ok p =>
        exact ⟨⟨⟨rfl, rfl, rfl, hs.pbestPos, hs.pbestCost, hs.bestPos, hs.bestCost,
          hs.currentCost⟩, h.top, rfl, rfl, h.cost, h.meanPbest, h.meanNeighbor, h.pos, h.velocity,
          h.evals, h.pools⟩, rfl⟩

theorem pick_symm {α : Type} (π : Equiv.Perm (Fin n)) (x : Fin n → α) :
    pick π.symm (pick π x) = x := by
  funext i
  unfold pick
  rw [π.apply_symm_apply]

theorem oracle_ren (π : Equiv.Perm (Fin n)) (r : Draw n d K) :
    OraclePick π r.oracle (r.renumber π).oracle :=
  ⟨fun k p x => by
      show pickNbr π (r.oracle.knn k p (pick π.symm (pick π x))) = _
      rw [pick_symm],
    fun x => by
      show (r.oracle.delaunay (pick π.symm (pick π x))).map (pickNbr π) = _
      rw [pick_symm],
    fun k => rfl⟩

theorem callGbest_ren {π : Equiv.Perm (Fin n)} (cfg : Config n d K) (r : Draw n d K)
    {s s' : Opt n d K} (h : Renumbered π s s') (hu : Untied s.swarm) :
    AnsPick π (callGbest cfg r.oracle s.top s.swarm)
      (callGbest (cfg.renumber π) (r.renumber π).oracle s'.top s'.swarm) := by
  unfold callGbest
  show AnsPick π _ (match cfg.kind with
    | .globalBest => _ | .localBest st => _ | .general top => _ | .binary => _)
  cases cfg.kind <;> exact computeGbest_pick h.swarm hu (oracle_ren π r) h.top _ _

theorem iterate_evals_eq {cfg : Config n d K} {ev : Mat n d K → Except Err (Costs n K)}
    {r : Draw n d K} {iters i : Nat} {q : List Bool} {s : Opt n d K} {c : Costs n K}
    (h : ev s.swarm.position = .ok c) :
    (iterate cfg ev r iters i q s).1.evals = (recordEval c s).evals := by
  have hc := iterate_cases cfg ev r iters i q s
  generalize (iterate cfg ev r iters i q s).1 = a at hc
  generalize (iterate cfg ev r iters i q s).2 = b at hc
  cases hc with
  | evalError e h' => rw [h] at h'; cases h'
  | gbestError c' t e h' hg => rw [h] at h'; cases h'; rfl
  | stop c' t g h' hg hi hq => rw [h] at h'; cases h'; rfl
  | moveError c' t g _ e h' hg hns hm =>
    rw [h] at h'
    cases h'
    have := moveSwarm_frame cfg r iters i (recordBest t g (recordEval c s))
    rw [hm] at this
    exact this.2.2.2.2.2.2.2.2.2.2.2.1
  | moved c' t g _ h' hg hns hm =>
    rw [h] at h'
    cases h'
    have := moveSwarm_frame cfg r iters i (recordBest t g (recordEval c s))
    rw [hm] at this
    exact this.2.2.2.2.2.2.2.2.2.2.2.1

theorem iterate_evals_sub (cfg : Config n d K) (ev : Mat n d K → Except Err (Costs n K))
    (r : Draw n d K) (iters i : Nat) (q : List Bool) (s : Opt n d K) :
    s.evals ⊆ (iterate cfg ev r iters i q s).1.evals := by
  cases h : ev s.swarm.position with
  | error e =>
    unfold iterate
    rw [h]
    exact List.Subset.refl _
  | ok c =>
    rw [iterate_evals_eq h]
    exact List.subset_append_left _ _

theorem iterate_ren {π : Equiv.Perm (Fin n)} (cfg : Config n d K)
    (ev : Nat → Mat n d K → Except Err (Costs n K)) (r : Draw n d K) (iters i : Nat)
    (q : List Bool) {s s' : Opt n d K} (h : Renumbered π s s') (hl : InLog s)
    (hd : Distinct (iterate cfg (ev i) r iters i q s).1.evals) :
    Renumbered π (iterate cfg (ev i) r iters i q s).1
        (iterate (cfg.renumber π) (renumberEv π ev i) (r.renumber π) iters i q s').1 ∧
      (iterate (cfg.renumber π) (renumberEv π ev i) (r.renumber π) iters i q s').2 =
        (iterate cfg (ev i) r iters i q s).2 ∧
      InLog (iterate cfg (ev i) r iters i q s).1 ∧
      (∀ f, (iterate cfg (ev i) r iters i q s).2 = .ok f →
        Untied (iterate cfg (ev i) r iters i q s).1.swarm) := by
  have hev : renumberEv π ev i s'.swarm.position = (ev i s.swarm.position).map (pick π) := by
    unfold renumberEv
    rw [h.swarm.position, pick_symm]
  cases he : ev i s.swarm.position with
  | error e =>
    unfold iterate
    rw [hev, he]
    exact ⟨h, rfl, hl, fun f hf => by cases hf⟩
  | ok c =>
    rw [iterate_evals_eq he] at hd
    have h1 := recordEval_ren h c
    have hl1 := inLog_recordEval hl c
    have hu := untied_recordEval hl c hd
    obtain ⟨h2, h3⟩ := callGbest_ren cfg r h1 hu
    unfold iterate
    rw [hev, he]
    dsimp only [Except.map]
    generalize callGbest cfg r.oracle (recordEval c s).top (recordEval c s).swarm = o at h2 h3
    generalize callGbest (cfg.renumber π) (r.renumber π).oracle (recordEval (pick π c) s').top
      (recordEval (pick π c) s').swarm = o' at h2 h3
    obtain ⟨t, o⟩ := o
    obtain ⟨t', o'⟩ := o'
    dsimp only at h2 h3
    subst h3
    cases o with
    | error e =>
      refine ⟨⟨h1.swarm, h2, h1.bhMem, h1.vhMem, h1.cost, h1.meanPbest, h1.meanNeighbor, h1.pos,
        h1.velocity, h1.evals, h1.pools⟩, rfl, hl1, fun f hf => by cases hf⟩
    | ok g =>
      dsimp only [Except.map]
      have h4 := recordBest_ren h1 h2 g
      have e1 : (recordBest t' (g.1.pick π, g.2) (recordEval (pick π c) s')).swarm.bestCostVal =
          (recordBest t g (recordEval c s)).swarm.bestCostVal := rfl
      have e2 : (recordEval (pick π c) s').swarm.bestCostVal =
          (recordEval c s).swarm.bestCostVal := bestCostVal_pick h1.swarm
      have e3 : (cfg.renumber π).window = cfg.window := rfl
      have e4 : (cfg.renumber π).ftol = cfg.ftol := rfl
      rw [e1, e2, e3, e4]
      split
      · exact ⟨h4, rfl, hl1, fun _ _ => hu⟩
      · obtain ⟨h5, h6⟩ := moveSwarm_ren cfg r iters i h4
        have hf := moveSwarm_frame cfg r iters i (recordBest t g (recordEval c s))
        have hl5 : InLog (moveSwarm cfg r iters i (recordBest t g (recordEval c s))).1 := by
          intro j
          rw [hf.1, hf.2.1, hf.2.2.2.2.2.2.2.2.2.2.2.1]
          exact hl1 j
        have hu5 : Untied (moveSwarm cfg r iters i (recordBest t g (recordEval c s))).1.swarm := by
          unfold Untied
          rw [hf.1, hf.2.1]
          exact hu
        generalize moveSwarm cfg r iters i (recordBest t g (recordEval c s)) = a at h5 h6 hl5 hu5
        generalize moveSwarm (cfg.renumber π) (r.renumber π) iters i
          (recordBest t' (g.1.pick π, g.2) (recordEval (pick π c) s')) = b at h5 h6
        obtain ⟨a, x⟩ := a
        obtain ⟨b, y⟩ := b
        dsimp only at h5 h6 hl5 hu5
        subst h6
        cases y with
        | error e => exact ⟨h5, rfl, hl5, fun f hf => by cases hf⟩
        | ok u => exact ⟨h5, rfl, hl5, fun _ _ => hu5⟩

theorem loop_evals_sub (cfg : Config n d K) (ev : Nat → Mat n d K → Except Err (Costs n K))
    (env : Nat → Draw n d K) (iters m i : Nat) (q : List Bool) (s : Opt n d K) :
    s.evals ⊆ (loop cfg ev env iters m i q s).1.evals :=
  loop_inv cfg ev env iters (fun t => s.evals ⊆ t.evals)
    (fun i q t ht => List.Subset.trans ht (iterate_evals_sub cfg (ev i) (env i) iters i q t)) m i q s
    (List.Subset.refl _)

theorem loop_ren {π : Equiv.Perm (Fin n)} (cfg : Config n d K)
    (ev : Nat → Mat n d K → Except Err (Costs n K)) (env : Nat → Draw n d K) (iters m i : Nat)
    (q : List Bool) {s s' : Opt n d K} (h : Renumbered π s s') (hl : InLog s)
    (hd : Distinct (loop cfg ev env iters m i q s).1.evals) :
    Renumbered π (loop cfg ev env iters m i q s).1
        (loop (cfg.renumber π) (renumberEv π ev) (fun i => (env i).renumber π) iters m i q s').1 ∧
      (loop (cfg.renumber π) (renumberEv π ev) (fun i => (env i).renumber π) iters m i q s').2 =
        (loop cfg ev env iters m i q s).2 ∧
      InLog (loop cfg ev env iters m i q s).1 ∧
      (0 < m → (loop cfg ev env iters m i q s).2 = .ok () →
        Untied (loop cfg ev env iters m i q s).1.swarm) := by
  induction m generalizing i q s s' with
  | zero => exact ⟨h, rfl, hl, fun h0 => absurd h0 (lt_irrefl _)⟩
  | succ m ih =>
    have hsub : Distinct (iterate cfg (ev i) (env i) iters i q s).1.evals := by
      refine distinct_sub hd ?_
      unfold loop
      split
      · next he => rw [he]; exact List.Subset.refl _
      · next he => rw [he]; exact List.Subset.refl _
      · next he => rw [he]; exact loop_evals_sub _ _ _ _ _ _ _ _
    obtain ⟨h1, h2, h3, h4⟩ := iterate_ren cfg ev (env i) iters i q h hl hsub
    unfold loop at hd ⊢
    generalize iterate cfg (ev i) (env i) iters i q s = a at h1 h2 h3 h4 hd
    generalize iterate (cfg.renumber π) (renumberEv π ev i) ((env i).renumber π) iters i q s' = b
      at h1 h2
    obtain ⟨a, x⟩ := a
    obtain ⟨b, y⟩ := b
    dsimp only at h1 h2 h3 h4
    subst h2
    rcases y with e | f
    · exact ⟨h1, rfl, h3, fun _ hf => by cases hf⟩
    · cases f with
      | stop => exact ⟨h1, rfl, h3, fun _ _ => h4 _ rfl⟩
      | «continue» q' =>
        dsimp only at hd ⊢
        obtain ⟨g1, g2, g3, g4⟩ := ih (i + 1) q' h1 h3 hd
        refine ⟨g1, g2, g3, fun _ hok => ?_⟩
        rcases Nat.eq_zero_or_pos m with rfl | hm
        · exact h4 _ rfl
        · exact g4 hm hok

theorem optimize_ren {π : Equiv.Perm (Fin n)} (cfg : Config n d K)
    (ev : Nat → Mat n d K → Except Err (Costs n K)) (iters : Nat) (nproc : Option Nat)
    (env : Nat → Draw n d K) {s s' : Opt n d K} (h : Renumbered π s s')
    (hd : Distinct (optimize cfg ev iters nproc env s).1.evals) :
    Renumbered π (optimize cfg ev iters nproc env s).1
        (optimize (cfg.renumber π) (renumberEv π ev) iters nproc (fun i => (env i).renumber π) s').1 ∧
      (0 < iters →
        (optimize (cfg.renumber π) (renumberEv π ev) iters nproc (fun i => (env i).renumber π) s').2 =
          (optimize cfg ev iters nproc env s).2) := by
  have hbh : ∀ nproc : Nat → Nat, Renumbered π { prepare cfg s with openPools := nproc s.openPools }
      { prepare (cfg.renumber π) s' with openPools := nproc s'.openPools } := by
    intro np
    have hs := h.swarm
    refine ⟨⟨hs.position, hs.velocity, hs.options, hs.pbestPos, rfl, hs.bestPos, hs.bestCost,
      hs.currentCost⟩, h.top, ?_, ?_, h.cost, h.meanPbest, h.meanNeighbor, h.pos, h.velocity,
      h.evals, congrArg np h.pools⟩
    · show (match cfg.kind with | .binary => _ | _ => _) =
        Option.map (pick π) (match cfg.kind with | .binary => _ | _ => _)
      cases cfg.kind with
      | binary => exact h.bhMem
      | globalBest => exact congrArg some hs.position
      | localBest st => exact congrArg some hs.position
      | general t => exact congrArg some hs.position
    · exact congrArg some hs.position
  unfold optimize at hd ⊢
  split
  · have := hbh id
    exact ⟨⟨h.swarm, h.top, this.bhMem, this.vhMem, h.cost, h.meanPbest, h.meanNeighbor, h.pos,
      h.velocity, h.evals, h.pools⟩, fun _ => rfl⟩
  · next hnp =>
    rw [if_neg hnp] at hd
    dsimp only at hd ⊢
    have h0 := hbh fun p => p + if nproc.isSome then 1 else 0
    have hl0 : InLog { prepare cfg s with
        openPools := s.openPools + if nproc.isSome then 1 else 0 } := by
      intro i
      refine ⟨by simp [prepare], fun hlt => ?_⟩
      have : XR.lt (XR.pinf : XR K) XR.pinf = true := hlt
      rw [XR.lt_irrefl] at this
      cases this
    have hd' : Distinct (loop cfg ev env iters iters 0 [] { prepare cfg s with
        openPools := s.openPools + if nproc.isSome then 1 else 0 }).1.evals := by
      generalize loop cfg ev env iters iters 0 [] { prepare cfg s with
        openPools := s.openPools + if nproc.isSome then 1 else 0 } = o at hd
      obtain ⟨s1, o⟩ := o
      cases o with
      | error e => exact hd
      | ok u =>
        dsimp only at hd
        cases hf : finish s1 with
        | error e => rw [hf] at hd; exact hd
        | ok r => rw [hf] at hd; exact hd
    obtain ⟨h1, h2, h3, h4⟩ := loop_ren cfg ev env iters iters 0 [] h0 hl0 hd'
    generalize loop cfg ev env iters iters 0 [] { prepare cfg s with
        openPools := s.openPools + if nproc.isSome then 1 else 0 } = a at h1 h2 h3 h4
    generalize loop (cfg.renumber π) (renumberEv π ev) (fun i => (env i).renumber π) iters iters 0 []
      { prepare (cfg.renumber π) s' with
        openPools := s'.openPools + if nproc.isSome then 1 else 0 } = b at h1 h2
    obtain ⟨a, x⟩ := a
    obtain ⟨b, y⟩ := b
    dsimp only at h1 h2 h3 h4
    subst h2
    cases y with
    | error e => exact ⟨h1, fun _ => rfl⟩
    | ok u =>
      dsimp only
      -- how the two calls finish
      have hA : ∀ s : Opt n d K, (∃ e, finish s = .error e ∧
            (s.swarm.bestCost = none ∧ e = .attributeError ∨
              s.swarm.bestCost ≠ none ∧ n = 0 ∧ e = .valueError)) ∨
          ∃ r, finish s = .ok r ∧ s.swarm.bestCost ≠ none ∧ n ≠ 0 := by
        intro s
        unfold finish
        cases hb : s.swarm.bestCost with
        | none => exact Or.inl ⟨_, rfl, Or.inl ⟨rfl, rfl⟩⟩
        | some c =>
          dsimp only
          cases hp : npArgmin s.swarm.pbestCost with
          | none => exact Or.inl ⟨_, rfl, Or.inr ⟨by simp, (npArgmin_none _).1 hp, rfl⟩⟩
          | some i =>
            refine Or.inr ⟨_, rfl, by simp, fun h0 => ?_⟩
            rw [(npArgmin_none _).2 h0] at hp
            cases hp
      have hbc := h1.swarm.bestCost
      have hend : Renumbered π
          { a with openPools := a.openPools - if nproc.isSome then 1 else 0 }
          { b with openPools := b.openPools - if nproc.isSome then 1 else 0 } :=
        ⟨h1.swarm, h1.top, h1.bhMem, h1.vhMem, h1.cost, h1.meanPbest, h1.meanNeighbor, h1.pos,
          h1.velocity, h1.evals, by rw [h1.pools]⟩
      rcases hA a with ⟨e, f1, f2⟩ | ⟨r, f1, f2, f3⟩
      · rcases hA b with ⟨e', g1, g2⟩ | ⟨r', g1, g2, g3⟩
        · rw [f1, g1]
          refine ⟨h1, fun _ => ?_⟩
          rw [hbc] at g2
          rcases f2 with ⟨f2, rfl⟩ | ⟨f2, _, rfl⟩ <;> rcases g2 with ⟨g2, rfl⟩ | ⟨g2, _, rfl⟩
          · rfl
          · exact absurd f2 g2
          · exact absurd g2 f2
          · rfl
        · exfalso
          rw [hbc] at g2
          rcases f2 with ⟨f2, _⟩ | ⟨_, f2, _⟩
          · exact g2 f2
          · exact g3 f2
      · rcases hA b with ⟨e', g1, g2⟩ | ⟨r', g1, g2, g3⟩
        · exfalso
          rw [hbc] at g2
          rcases g2 with ⟨g2, _⟩ | ⟨_, g2, _⟩
          · exact f2 g2
          · exact f3 g2
        · rw [f1, g1]
          refine ⟨hend, fun hi => ?_⟩
          have hu := h4 hi rfl
          rcases npArgmin_pick h1.swarm hu with ⟨k1, _⟩ | ⟨k, k', k1, k2, k3, k4⟩
          · exact absurd ((npArgmin_none _).1 k1) f3
          · unfold finish at f1 g1
            cases hb : a.swarm.bestCost with
            | none => exact absurd hb f2
            | some c =>
              rw [hbc, hb] at g1
              rw [hb] at f1
              dsimp only at f1 g1
              rw [k1] at f1
              rw [k2] at g1
              cases f1
              cases g1
              rw [k4]

theorem generateDiscrete_pick (π : Equiv.Perm (Fin n)) (b : Bool) (p : Option (Mat n d K))
    (bits : Fin n → Fin d → Bool) (a : ArgsortOracle n d) :
    generateDiscreteSwarm b (p.map (pick π)) (pick π bits) (pick π a) =
      (generateDiscreteSwarm b p bits a).map (pick π) := by
  cases p with
  | none => cases b <;> rfl
  | some p =>
    cases b with
    | false => rfl
    | true =>
      have : atMostTwoValues (pick π p) = atMostTwoValues p := by
        unfold atMostTwoValues
        congr 2
        have e : ((List.finRange n).flatMap fun i => (List.finRange d).map fun j => pick π p i j) =
            ((List.finRange n).map π).flatMap fun i => (List.finRange d).map fun j => p i j := by
          rw [List.flatMap_map]
          rfl
        rw [e]
        exact (((finRange_perm π).flatMap_right _).dedup).length_eq
      unfold generateDiscreteSwarm
      simp only [Option.map_some, this]
      split <;> rfl

theorem generateSwarm_pick (π : Equiv.Perm (Fin n)) (b : Option (Bounds d K)) (c : Vec d K)
    (p : Option (Mat n d K)) (u : Mat n d K) :
    generateSwarm b c (p.map (pick π)) (pick π u) = (generateSwarm b c p u).map (pick π) := by
  cases p with
  | none => cases b <;> rfl
  | some p =>
    cases b with
    | none => rfl
    | some b =>
      unfold generateSwarm
      dsimp only [Option.map_some]
      rw [show ((List.finRange n).all fun i => (List.finRange d).all fun j =>
          decide (b.1 j ≤ pick π p i j)) = _ from
          all_pick π fun i => (List.finRange d).all fun j => decide (b.1 j ≤ p i j),
        show ((List.finRange n).all fun i => (List.finRange d).all fun j =>
          decide (pick π p i j ≤ b.2 j)) = _ from
          all_pick π fun i => (List.finRange d).all fun j => decide (p i j ≤ b.2 j)]
      split <;> rfl

theorem resetSwarm_ren (π : Equiv.Perm (Fin n)) (cfg : Config n d K) (r : InitDraw n d K) :
    ExRel (SwarmPick π) (resetSwarm cfg r) (resetSwarm (cfg.renumber π) (r.renumber π)) := by
  unfold resetSwarm createSwarm
  dsimp only
  have hb : (cfg.renumber π).isBinary = cfg.isBinary := rfl
  rw [hb]
  have hp : (if cfg.isBinary then
        generateDiscreteSwarm cfg.isBinary (cfg.renumber π).initPos (r.renumber π).bits
          (r.renumber π).argsort
      else generateSwarm (if cfg.isBinary then none else (cfg.renumber π).bounds)
        (cfg.renumber π).center (cfg.renumber π).initPos (r.renumber π).pos) =
      (if cfg.isBinary then generateDiscreteSwarm cfg.isBinary cfg.initPos r.bits r.argsort
      else generateSwarm (if cfg.isBinary then none else cfg.bounds) cfg.center cfg.initPos
        r.pos).map (pick π) := by
    split
    · exact generateDiscrete_pick π _ _ _ _
    · exact generateSwarm_pick π _ _ _ _
  rw [hp]
  cases (if cfg.isBinary then generateDiscreteSwarm cfg.isBinary cfg.initPos r.bits r.argsort
      else generateSwarm (if cfg.isBinary then none else cfg.bounds) cfg.center cfg.initPos
        r.pos) with
  | error e => exact rfl
  | ok p => exact ⟨rfl, by unfold generateVelocity; rfl, rfl, rfl, rfl, rfl, rfl, rfl⟩

theorem reset_ren {π : Equiv.Perm (Fin n)} (cfg : Config n d K) (r : InitDraw n d K)
    {s s' : Opt n d K} (h : Renumbered π s s') :
    Renumbered π (reset cfg r s).1 (reset (cfg.renumber π) (r.renumber π) s').1 := by
  have hr := resetSwarm_ren π cfg r
  unfold reset
  dsimp only
  cases hs : resetSwarm cfg r with
  | error e =>
    rw [hs] at hr
    rw [exRel_error hr]
    exact ⟨h.swarm, h.top, h.bhMem, h.vhMem, rfl, rfl, rfl, rfl, rfl, h.evals, h.pools⟩
  | ok sw =>
    rw [hs] at hr
    obtain ⟨sw', hs', hr⟩ := exRel_ok hr
    rw [hs']
    exact ⟨hr, h.top, h.bhMem, h.vhMem, rfl, rfl, rfl, rfl, rfl, rfl, h.pools⟩

/-- **C71.**  No particle is special.  Renumber the particles (rows of `init_pos`, random numbers,
neighbour queries, and in the objective).  For all four optimizers and every configuration: the
constructor succeeds as before, and after every sequence of calls in which no two different
positions evaluated since the last reset had equal costs, all below `+inf`, the second optimizer
is the first one renumbered: same cost histories, same best cost, same trajectories of every
particle.  The pair returned by a further call with `iters ≥ 1` is the same. -/
theorem C71_particles (cfg : Config n d K) (π : Equiv.Perm (Fin n)) (r1 r2 : InitDraw n d K)
    (s0 : Opt n d K) (hc : construct cfg r1 r2 = .ok s0) :
    ∃ s0', construct (cfg.renumber π) (r1.renumber π) (r2.renumber π) = .ok s0' ∧
      ∀ ops : List (Op n d K), (∀ pre, pre <+: ops → Distinct (runOps cfg s0 pre).evals) →
        Renumbered π (runOps cfg s0 ops) (runOps (cfg.renumber π) s0' (ops.map (Op.renumber π))) ∧
        ∀ ev iters nproc env, 0 < iters →
          Distinct (optimize cfg ev iters nproc env (runOps cfg s0 ops)).1.evals →
          (optimize (cfg.renumber π) (renumberEv π ev) iters nproc (fun i => (env i).renumber π)
            (runOps (cfg.renumber π) s0' (ops.map (Op.renumber π)))).2 =
          (optimize cfg ev iters nproc env (runOps cfg s0 ops)).2 := by
  have hcc : ∃ s0', construct (cfg.renumber π) (r1.renumber π) (r2.renumber π) = .ok s0' ∧
      Renumbered π s0 s0' := by
    have hr1 := resetSwarm_ren π cfg r1
    have hr2 := resetSwarm_ren π cfg r2
    unfold construct at hc ⊢
    have ek : (cfg.renumber π).kind = cfg.kind := rfl
    have ea : (cfg.renumber π).args = cfg.args := rfl
    have ef : (cfg.renumber π).ftolIter = cfg.ftolIter := rfl
    rw [ek, ea, ef]
    split at hc
    · cases hc
    · next hkp =>
      rw [if_neg hkp]
      cases hf : checkFtolIter cfg.ftolIter with
      | error e => rw [hf] at hc; cases hc
      | ok u =>
        rw [hf] at hc
        dsimp only at hc ⊢
        cases h1 : resetSwarm cfg r1 with
        | error e => rw [h1] at hc; cases hc
        | ok sw1 =>
          rw [h1] at hc hr1
          obtain ⟨sw1', h1', _⟩ := exRel_ok hr1
          rw [h1']
          dsimp only at hc ⊢
          cases h2 : resetSwarm cfg r2 with
          | error e => rw [h2] at hc; cases hc
          | ok sw2 =>
            rw [h2] at hc hr2
            obtain ⟨sw2', h2', hs2⟩ := exRel_ok hr2
            rw [h2']
            cases hc
            exact ⟨_, rfl, hs2, ⟨rfl, trivial⟩, rfl, rfl, rfl, rfl, rfl, rfl, rfl, rfl, rfl⟩
  obtain ⟨s0', hc', h0⟩ := hcc
  refine ⟨s0', hc', fun ops hd => ?_⟩
  have key : Renumbered π (runOps cfg s0 ops)
      (runOps (cfg.renumber π) s0' (ops.map (Op.renumber π))) := by
    clear hc hc'
    induction ops generalizing s0 s0' with
    | nil => exact h0
    | cons op ops ih =>
      refine ih (stepOp cfg s0 op) (stepOp (cfg.renumber π) s0' (op.renumber π)) ?_ ?_
      · cases op with
        | optimize ev iters nproc env =>
          have h1 := hd [.optimize ev iters nproc env] (by simp)
          exact (optimize_ren cfg ev iters nproc env h0 h1).1
        | reset r => exact reset_ren cfg r h0
      · intro pre hpre
        exact hd (op :: pre) (List.cons_prefix_cons.2 ⟨rfl, hpre⟩)
  refine ⟨key, fun ev iters nproc env hi hd' => (optimize_ren cfg ev iters nproc env key hd').2 hi⟩

/-- Non-vacuity of C71: the first two of three particles of LocalBestPSO are exchanged; the costs are all different; the
particles move. -/
example : (match construct (Ex.rcfg 3 1 false 2) (Ex.init 3 1) (Ex.init 3 1),
      construct ((Ex.rcfg 3 1 false 2).renumber (Equiv.swap 0 1)) ((Ex.init 3 1).renumber (Equiv.swap 0 1))
        ((Ex.init 3 1).renumber (Equiv.swap 0 1)) with
    | .ok s, .ok s' =>
      match optimize (Ex.rcfg 3 1 false 2) (fun _ x => .ok fun i => .fin (x i 0)) 3 none
          (fun _ => Ex.draw 3 1) s,
        optimize ((Ex.rcfg 3 1 false 2).renumber (Equiv.swap 0 1))
          (renumberEv (Equiv.swap 0 1) fun _ x => .ok fun i => .fin (x i 0)) 3 none
          (fun _ => (Ex.draw 3 1).renumber (Equiv.swap 0 1)) s' with
      | (t, .ok (c, p)), (t', .ok (c', p')) =>
        decide (c = c' ∧ p 0 = p' 0 ∧ t'.swarm.position 0 0 = t.swarm.position 1 0 ∧
          t.swarm.position 1 0 ≠ s.swarm.position 1 0 ∧
          t.swarm.position 1 0 ≠ t.swarm.position 0 0)
      | _, _ => false
    | _, _ => false) = true := by decide +kernel

/-- The objective of that example satisfies the hypothesis of C71 for every run: the cost is an
injective function of the position. -/
example (ops : List (Op 3 1 ℚ)) (s0 : Opt 3 1 ℚ)
    (hc : construct (Ex.rcfg 3 1 false 2) (Ex.init 3 1) (Ex.init 3 1) = .ok s0)
    (h : ∀ op ∈ ops, ∃ iters nproc env,
      op = .optimize (fun _ x => .ok fun i => .fin (x i 0)) iters nproc env) :
    Distinct (runOps (Ex.rcfg 3 1 false 2) s0 ops).evals := by
  have hI : ∀ e ∈ (runOps (Ex.rcfg 3 1 false 2) s0 ops).evals, ∀ i : Fin 3, e.2 i = .fin (e.1 i 0) := by
    refine runOps_inv (Ex.rcfg 3 1 false 2)
      (fun s => ∀ e ∈ s.evals, ∀ i : Fin 3, e.2 i = .fin (e.1 i 0))
      (fun op => ∃ iters nproc env,
        op = .optimize (fun _ x => .ok fun i => .fin (x i 0)) iters nproc env) ?_ ops h s0 ?_
    · rintro s _ ⟨iters, nproc, env, rfl⟩ hs
      refine optimize_inv2 _ _ _ _ _ (fun s => ∀ e ∈ s.evals, ∀ i : Fin 3, e.2 i = .fin (e.1 i 0))
        (fun s => ∀ e ∈ s.evals, ∀ i : Fin 3, e.2 i = .fin (e.1 i 0)) (fun _ h => h) ?_
        (fun _ _ h => h) (fun _ _ _ h => h) s hs
      intro i q s hs e he
      rw [iterate_evals_eq (c := fun i => .fin (s.swarm.position i 0)) rfl] at he
      rcases List.mem_append.1 he with he | he
      · exact hs e he
      · rw [List.mem_singleton] at he
        subst he
        intro i
        rfl
    · obtain ⟨sw, _, rfl⟩ := construct_ok _ _ _ _ hc
      intro e he
      cases he
  refine ⟨fun e he i => by rw [hI e he i]; rfl, fun e he f hf i j hij => ?_⟩
  rw [hI e he i, hI f hf j] at hij
  funext k
  have : k = 0 := Subsingleton.elim _ _
  subst this
  exact XR.fin.inj hij

end PySwarms
