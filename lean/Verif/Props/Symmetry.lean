import Verif.Lemmas.Change
import Verif.Examples
import Mathlib.Order.Monotone.Defs

/-!
# Symmetries of a run (C51, C55, C60, C61)

Two optimizers run side by side: the second sees the search space through a change of coordinates
and the costs through an increasing transformation.
-/

set_option linter.unusedSectionVars false

namespace PySwarms

variable {n d : Nat} {K : Type} [Field K] [LinearOrder K] [IsStrictOrderedRing K] [Transc K]
  [FloorRing K]

/-! ## Vocabulary -/

/-- The same problem in other coordinates: bounds, `init_pos` and velocity clamp are rewritten;
everything else is kept (`center`, one factor per dimension, is renamed with the dimensions). -/
def Change.cfg (φ : Change d K) (cfg : Config n d K) : Config n d K :=
  { cfg with
    bounds := cfg.bounds.map φ.bounds
    clamp := cfg.clamp.map φ.clamp
    initPos := cfg.initPos.map φ.mat
    center := φ.ren cfg.center }

/-- The same random numbers, and neighbour queries that answer alike. -/
structure DrawSeen (φ : Change d K) (r r' : Draw n d K) : Prop where
  r1 : r'.r1 = fun i => φ.ren (r.r1 i)
  r2 : r'.r2 = fun i => φ.ren (r.r2 i)
  bh : r'.bh = ⟨φ.ren r.bh.u, φ.ren r.bh.l, r.bh.passes⟩
  oracle : OracleSeen φ.pt r.oracle r'.oracle
  oh : r'.oh = r.oh
  thr : r'.thr = φ.ren r.thr

/-- The same random numbers for a new swarm. -/
structure InitSeen (φ : Change d K) (r r' : InitDraw n d K) : Prop where
  pos : r'.pos = fun i => φ.ren (r.pos i)
  bits : r'.bits = fun i => φ.ren (r.bits i)
  argsort : r'.argsort = fun i => φ.ren (r.argsort i)
  vel : r'.vel = fun i => φ.ren (r.vel i)

/-- `ev'` is the objective `ev` written in the new coordinates, with transformed costs. -/
def EvSeen (φ : Change d K) (g : XR K → XR K) (ev ev' : Nat → Mat n d K → Except Err (Costs n K)) :
    Prop :=
  ∀ k x, ev' k (φ.mat x) = (ev k x).map fun c i => g (c i)

/-- The second call is the first one in the new coordinates. -/
inductive OpSeen (φ : Change d K) (g : XR K → XR K) : Op n d K → Op n d K → Prop
  | optimize {ev ev' iters nproc env env'} (h : EvSeen φ g ev ev')
      (he : ∀ i, DrawSeen φ (env i) (env' i)) :
      OpSeen φ g (.optimize ev iters nproc env) (.optimize ev' iters nproc env')
  | reset {r r'} (h : InitSeen φ r r') : OpSeen φ g (.reset r) (.reset r')

/-- The second optimizer is the first one seen in the new coordinates: positions (current, personal
best, best, history) are rewritten as points, velocities as displacements, costs by `g`.
`mean_pbest_history` is only compared when the costs are not transformed. -/
structure Seen (φ : Change d K) (g : XR K → XR K) (s s' : Opt n d K) : Prop where
  swarm : SwarmSeen φ.pt φ.vec g s.swarm s'.swarm
  top : s'.top = s.top
  bhMem : s'.bhMem = s.bhMem.map φ.mat
  vhMem : s'.vhMem = s.vhMem.map φ.mat
  cost : s'.costHistory = s.costHistory.map g
  meanNeighbor : s'.meanNeighborHistory = s.meanNeighborHistory.map g
  meanPbest : (∀ c, g c = c) → s'.meanPbestHistory = s.meanPbestHistory
  pos : s'.posHistory = s.posHistory.map φ.mat
  velocity : s'.velocityHistory = s.velocityHistory.map φ.vmat
  evals : s'.evals = s.evals.map fun e => (φ.mat e.1, fun i => g (e.2 i))
  openPools : s'.openPools = s.openPools

/-- The change of coordinates is meaningful for the optimizer: scales are positive, and for
`BinaryPSO`, whose positions are bits, it only renames the dimensions. -/
structure Change.Fits (φ : Change d K) (cfg : Config n d K) : Prop where
  scale : ∀ j, 0 < φ.scale j
  binary : cfg.kind = .binary → ∀ j, φ.scale j = 1 ∧ φ.shift j = 0

/-- The initial swarm is meaningful in both coordinate systems: initial velocities come from a
velocity clamp or the scales are 1 (the default velocities are in [0, 1) whatever the units); initial
positions come from `init_pos`, or from the bounds with `center = 1`, or the change only renames
dimensions. -/
def Change.FitsStart (φ : Change d K) (cfg : Config n d K) : Prop :=
  (cfg.clamp ≠ none ∨ ∀ j, φ.scale j = 1) ∧
  (cfg.initPos ≠ none ∨ (cfg.bounds ≠ none ∧ ∀ j, cfg.center j = 1) ∨
    ∀ j, φ.scale j = 1 ∧ φ.shift j = 0)

/-! ## One step -/

variable {φ : Change d K} {g : XR K → XR K} {cfg : Config n d K}

theorem tempVelocity_seen {s s' : Swarm n d K} (h : SwarmSeen φ.pt φ.vec g s s') (c1 c2 w : K)
    (r1 r2 : Mat n d K) :
    tempVelocity c1 c2 w (fun i => φ.ren (r1 i)) (fun i => φ.ren (r2 i)) s' =
      φ.vmat (tempVelocity c1 c2 w r1 r2 s) := by
  have hrow : ∀ i, s'.bestPos.row (fun i => φ.pt (s.position i)) i =
      φ.pt (s.bestPos.row s.position i) := by
    intro i
    rw [h.bestPos]
    cases s.bestPos <;> rfl
  funext i j
  simp only [tempVelocity, h.position, h.velocity, h.pbestPos, hrow]
  simp only [tempVelocity, Change.pt, Change.vec, Change.vmat, Change.ren]
  ring

theorem computeVelocity_seen (hφ : ∀ j, 0 < φ.scale j) {s s' : Swarm n d K}
    (h : SwarmSeen φ.pt φ.vec g s s') (c : Option (Clamp d K)) (st : String)
    (mem : Option (Mat n d K)) (b : Option (Bounds d K)) (r1 r2 : Mat n d K) :
    computeVelocity s' (c.map φ.clamp) st (mem.map φ.mat) (b.map φ.bounds)
        (fun i => φ.ren (r1 i)) (fun i => φ.ren (r2 i)) =
      ((computeVelocity s c st mem b r1 r2).1.map φ.mat,
       (computeVelocity s c st mem b r1 r2).2.map φ.vmat) := by
  unfold computeVelocity
  rw [h.options]
  split
  · next c1 c2 w _ _ _ =>
    dsimp only
    rw [tempVelocity_seen h, show s'.position = φ.mat s.position from h.position,
      Change.vhCall_mat hφ, h.bestPos]
    cases s.bestPos with
    | empty =>
      dsimp only [BestPos.map]
      split
      · rfl
      · split
        · split
          · rfl
          · generalize vhCall st mem c { position := some s.position, bounds := some b }
              (tempVelocity c1 c2 w r1 r2 s) = o
            obtain ⟨m, e | v⟩ := o <;> rfl
        · rfl
    | single v => rfl
    | perParticle m => rfl
  · rfl

theorem callPosition_seen (hφ : φ.Fits cfg) {s s' : Swarm n d K}
    (h : SwarmSeen φ.pt φ.vec g s s') (mem : Option (Mat n d K)) {r r' : Draw n d K}
    (hr : DrawSeen φ r r') :
    callPosition (φ.cfg cfg) r' (mem.map φ.mat) s' =
      ((callPosition cfg r mem s).1.map φ.mat, (callPosition cfg r mem s).2.map φ.mat) := by
  unfold callPosition
  rw [show (φ.cfg cfg).kind = cfg.kind from rfl, show (φ.cfg cfg).bounds = cfg.bounds.map φ.bounds from rfl,
    show (φ.cfg cfg).bhStrategy = cfg.bhStrategy from rfl]
  split
  · next hk =>
    refine Prod.ext rfl (congrArg Except.ok ?_)
    funext i j
    obtain ⟨h1, h2⟩ := hφ.binary hk j
    rw [h.velocity, hr.thr]
    simp only [binaryPosition, Change.mat, Change.pt, Change.vec, Change.ren, h1, h2, one_mul,
      add_zero]
  · unfold computePosition
    dsimp only
    have hx : (fun i j => s'.position i j + s'.velocity i j) =
        φ.mat fun i j => s.position i j + s.velocity i j := by
      funext i j
      rw [h.position, h.velocity]
      simp only [Change.mat, Change.pt, Change.vec]
      ring
    rw [hx]
    cases cfg.bounds with
    | none => rfl
    | some b =>
      rw [hr.bh]
      exact Change.bhCall_mat hφ.scale _ _ _ _ _

theorem moveSwarm_seen (hφ : φ.Fits cfg) {r r' : Draw n d K} (hr : DrawSeen φ r r')
    (iters i : Nat) (s s' : Opt n d K) (h : Seen φ g s s') :
    Seen φ g (moveSwarm cfg r iters i s).1 (moveSwarm (φ.cfg cfg) r' iters i s').1 ∧
      (moveSwarm cfg r iters i s).2 = (moveSwarm (φ.cfg cfg) r' iters i s').2 := by
  have ho : callOptions (φ.cfg cfg) iters i r' s'.swarm = callOptions cfg iters i r s.swarm := by
    unfold callOptions
    rw [h.swarm.options, hr.oh]
    rfl
  have hb : velBounds (φ.cfg cfg) = (velBounds cfg).map φ.bounds := by
    unfold velBounds
    rw [show (φ.cfg cfg).kind = cfg.kind from rfl]
    split <;> rfl
  unfold moveSwarm
  rw [ho]
  split
  · exact ⟨h, rfl⟩
  · next o _ =>
    dsimp only
    have hs1 : SwarmSeen φ.pt φ.vec g { s.swarm with options := o } { s'.swarm with options := o } :=
      ⟨h.swarm.1, h.swarm.2, rfl, h.swarm.4, h.swarm.5, h.swarm.6, h.swarm.7, h.swarm.8⟩
    have hv := computeVelocity_seen hφ.scale hs1 cfg.clamp cfg.vhStrategy s.vhMem (velBounds cfg)
      r.r1 r.r2
    rw [← h.vhMem, ← hb, ← hr.r1, ← hr.r2] at hv
    rw [show (φ.cfg cfg).clamp = cfg.clamp.map φ.clamp from rfl,
      show (φ.cfg cfg).vhStrategy = cfg.vhStrategy from rfl, hv]
    generalize computeVelocity { s.swarm with options := o } cfg.clamp cfg.vhStrategy s.vhMem
      (velBounds cfg) r.r1 r.r2 = q
    obtain ⟨vm, e | v⟩ := q
    · exact ⟨⟨hs1, h.2, h.3, rfl, h.5, h.6, h.7, h.8, h.9, h.10, h.11⟩, rfl⟩
    · dsimp only [Except.map]
      have hs2 : SwarmSeen φ.pt φ.vec g { s.swarm with options := o, velocity := v }
          { s'.swarm with options := o, velocity := φ.vmat v } :=
        ⟨h.swarm.1, rfl, rfl, h.swarm.4, h.swarm.5, h.swarm.6, h.swarm.7, h.swarm.8⟩
      have hp := callPosition_seen hφ hs2 s.bhMem hr
      rw [← h.bhMem] at hp
      rw [hp]
      generalize callPosition cfg r s.bhMem { s.swarm with options := o, velocity := v } = q
      obtain ⟨bm, e | p⟩ := q
      · exact ⟨⟨hs2, h.2, rfl, rfl, h.5, h.6, h.7, h.8, h.9, h.10, h.11⟩, rfl⟩
      · exact ⟨⟨⟨rfl, hs2.2, rfl, hs2.4, hs2.5, hs2.6, hs2.7, hs2.8⟩, h.2, rfl, rfl, h.5, h.6, h.7,
          h.8, h.9, h.10, h.11⟩, rfl⟩

theorem recordEval_seen (hg : CostMap g) (c : Costs n K) (s s' : Opt n d K) (h : Seen φ g s s') :
    Seen φ g (recordEval c s) (recordEval (fun i => g (c i)) s') := by
  obtain ⟨⟨h1, h2, h3, h4, h5, h6, h7, h8⟩, ht, hb, hv, hc, hmn, hmp, hp, hve, he, ho⟩ := h
  refine ⟨⟨h1, h2, h3, ?_, ?_, h6, h7, rfl⟩, ht, hb, hv, hc, hmn, hmp, hp, hve, ?_, ho⟩
  · funext i j
    simp only [recordEval, computePbest, h5, hg.lt, h4, h1]
    simp only [Change.pt]
    split_ifs <;> rfl
  · funext i
    simp only [recordEval, computePbest, h5, hg.lt]
    split_ifs <;> rfl
  · simp only [recordEval, he, List.map_append, List.map_cons, List.map_nil, h1]
    rfl

theorem recordBest_seen (hg : CostMap g) (t : TopState n) (b : GBest n d K) (s s' : Opt n d K)
    (h : Seen φ g s s') : Seen φ g (recordBest t b s) (recordBest t (seenBest φ.pt g b) s') := by
  obtain ⟨⟨h1, h2, h3, h4, h5, h6, h7, h8⟩, ht, hb, hv, hc, hmn, hmp, hp, hve, he, ho⟩ := h
  have hbc : ((b.2.map g).getD XR.pinf) = g (b.2.getD XR.pinf) := by
    cases b.2 with
    | none => exact hg.pinf.symm
    | some c => rfl
  refine ⟨⟨h1, h2, h3, h4, h5, rfl, rfl, h8⟩, rfl, hb, hv, ?_, ?_, ?_, ?_, ?_, he, ho⟩
  · simp only [recordBest, Opt.populateHistory, Swarm.bestCostVal, seenBest, hc, hbc, List.map_append,
      List.map_cons, List.map_nil]
  · simp only [recordBest, Opt.populateHistory, Swarm.bestCostVal, seenBest, hmn, hbc, List.map_append,
      List.map_cons, List.map_nil]
  · intro hid
    simp only [recordBest, Opt.populateHistory, hmp hid, h5, hid]
  · simp only [recordBest, Opt.populateHistory, hp, h1, List.map_append, List.map_cons, List.map_nil]
    rfl
  · simp only [recordBest, Opt.populateHistory, hve, h2, List.map_append, List.map_cons, List.map_nil]
    rfl

/-- The stop test does not notice the cost transformation. -/
def StopSeen (cfg : Config n d K) (g : XR K → XR K) : Prop :=
  ∀ now yet, ftolDelta cfg.ftol (g now) (g yet) = ftolDelta cfg.ftol now yet

theorem optimize_seen (hφ : φ.Fits cfg) (hg : CostMap g) (hst : StopSeen cfg g)
    {ev ev' : Nat → Mat n d K → Except Err (Costs n K)} (hev : EvSeen φ g ev ev')
    (iters : Nat) (nproc : Option Nat) {env env' : Nat → Draw n d K}
    (hr : ∀ i, DrawSeen φ (env i) (env' i)) (s s' : Opt n d K) (h : Seen φ g s s') :
    Seen φ g (optimize cfg ev iters nproc env s).1 (optimize (φ.cfg cfg) ev' iters nproc env' s').1 ∧
      (optimize (φ.cfg cfg) ev' iters nproc env' s').2 =
        (optimize cfg ev iters nproc env s).2.map fun r => (g r.1, φ.pt r.2) := by
  have hmem : ∀ s s' : Opt n d K, Seen φ g s s' →
      (prepare (φ.cfg cfg) s').bhMem = (prepare cfg s).bhMem.map φ.mat ∧
      (prepare (φ.cfg cfg) s').vhMem = (prepare cfg s).vhMem.map φ.mat := by
    intro s s' h
    unfold prepare
    dsimp only
    rw [show (φ.cfg cfg).kind = cfg.kind from rfl, h.swarm.position]
    refine ⟨?_, rfl⟩
    split
    · exact h.bhMem
    · rfl
  have key := optimize_sim cfg (φ.cfg cfg) ev ev' iters nproc env env' (Seen φ g) (Seen φ g)
    (fun r r' => r' = (g r.1, φ.pt r.2))
    (fun s s' h => ?_) (fun s s' h => ?_) (fun i q s s' h => ?_) (fun s s' h => ?_)
    (fun s s' h => h)
    (fun s s' h => ⟨h.1, h.2, h.3, h.4, h.5, h.6, h.7, h.8, h.9, h.10, by
      show s'.openPools - _ = s.openPools - _
      rw [h.openPools]⟩) s s' h
  · refine ⟨key.1, ?_⟩
    have h2 := key.2
    generalize (optimize cfg ev iters nproc env s).2 = o at h2 ⊢
    generalize (optimize (φ.cfg cfg) ev' iters nproc env' s').2 = o' at h2 ⊢
    cases o with
    | error e => rw [exRel_error h2]; rfl
    | ok v => obtain ⟨v', rfl, rfl⟩ := exRel_ok h2; rfl
  · obtain ⟨m1, m2⟩ := hmem s s' h
    refine ⟨⟨h.swarm.1, h.swarm.2, h.swarm.3, h.swarm.4, ?_, h.swarm.6, h.swarm.7, h.swarm.8⟩,
      h.2, m1, m2, h.5, h.6, h.7, h.8, h.9, h.10, ?_⟩
    · funext i
      exact hg.pinf.symm
    · show s'.openPools + _ = s.openPools + _
      rw [h.openPools]
  · obtain ⟨m1, m2⟩ := hmem s s' h
    exact ⟨h.1, h.2, m1, m2, h.5, h.6, h.7, h.8, h.9, h.10, h.11⟩
  · apply iterate_sim cfg (φ.cfg cfg) (ev i) (ev' i) (env i) (env' i) iters i q (Seen φ g) _ _ rfl _
      s s' h
    · intro s s' h
      rw [show s'.swarm.position = φ.mat s.swarm.position from h.swarm.position, hev]
      cases ev i s.swarm.position with
      | error e => rfl
      | ok c => exact recordEval_seen hg c s s' h
    · intro s s' h
      have hgb := callGbest_seen hg h.swarm (hr i).oracle cfg (φ.cfg cfg) rfl rfl s.top
      rw [h.top, hgb]
      refine ⟨⟨h.1, rfl, h.3, h.4, h.5, h.6, h.7, h.8, h.9, h.10, h.11⟩, ?_⟩
      dsimp only
      cases (callGbest cfg (env i).oracle s.top s.swarm).2 with
      | error e => rfl
      | ok b =>
        refine ⟨recordBest_seen hg _ b s s' h, ?_⟩
        rw [h.swarm.bestCostVal hg]
        have hbc : ((b.2.map g).getD XR.pinf) = g (b.2.getD XR.pinf) := by
          cases b.2 with
          | none => exact hg.pinf.symm
          | some c => rfl
        show _ = ftolDelta cfg.ftol ((b.2.map g).getD XR.pinf) (g s.swarm.bestCostVal)
        rw [hbc, hst]
    · intro s s' h
      exact moveSwarm_seen hφ (hr i) iters i s s' h
  · unfold finish
    rw [h.swarm.bestCost, h.swarm.pbestCost, npArgmin_map hg, h.swarm.pbestPos]
    cases s.swarm.bestCost with
    | none => rfl
    | some c =>
      dsimp only [Option.map_some]
      cases npArgmin s.swarm.pbestCost with
      | none => rfl
      | some i => rfl

/-! ## The initial swarm -/

theorem atMostTwo_ren (σ : Equiv.Perm (Fin d)) (p : Mat n d K) :
    atMostTwoValues (fun i j => p i (σ j)) = atMostTwoValues p := by
  unfold atMostTwoValues
  apply decide_eq_decide.2
  have : ((List.finRange n).flatMap fun i => (List.finRange d).map fun j => p i (σ j)).Perm
      ((List.finRange n).flatMap fun i => (List.finRange d).map fun j => p i j) := by
    apply List.Perm.flatMap_left
    intro i _
    have e : (List.finRange d).map (fun j => p i (σ j)) = ((List.finRange d).map σ).map (p i) := by
      rw [List.map_map]; rfl
    rw [e]
    apply List.Perm.map
    rw [List.perm_ext_iff_of_nodup ((List.nodup_finRange d).map σ.injective) (List.nodup_finRange d)]
    intro a
    simp only [List.mem_map, List.mem_finRange, true_and, iff_true]
    exact ⟨σ.symm a, by simp⟩
  rw [(this.dedup).length_eq]

theorem resetSwarm_seen (hφ : φ.Fits cfg) (hs : φ.FitsStart cfg) (hg : CostMap g)
    {r r' : InitDraw n d K} (hr : InitSeen φ r r') :
    ExRel (SwarmSeen φ.pt φ.vec g) (resetSwarm cfg r) (resetSwarm (φ.cfg cfg) r') := by
  have hpos : (if cfg.isBinary then
        generateDiscreteSwarm cfg.isBinary (cfg.initPos.map φ.mat) r'.bits r'.argsort
      else generateSwarm (if cfg.isBinary then none else cfg.bounds.map φ.bounds) (φ.ren cfg.center)
        (cfg.initPos.map φ.mat) r'.pos) =
      (if cfg.isBinary then generateDiscreteSwarm cfg.isBinary cfg.initPos r.bits r.argsort
      else generateSwarm (if cfg.isBinary then none else cfg.bounds) cfg.center cfg.initPos
        r.pos).map φ.mat := by
    by_cases hb : cfg.isBinary = true
    · have hk : cfg.kind = .binary := by
        unfold Config.isBinary at hb
        split at hb
        · assumption
        · cases hb
      have h1 := hφ.binary hk
      simp only [hb, if_true]
      unfold generateDiscreteSwarm
      cases cfg.initPos with
      | none =>
        refine congrArg Except.ok ?_
        funext i j
        rw [hr.bits]
        simp only [Change.mat, Change.pt, Change.ren, h1, one_mul, add_zero]
        rfl
      | some p =>
        have e : φ.mat p = fun i j => p i (φ.perm j) := by
          funext i j
          simp only [Change.mat, Change.pt, h1, one_mul, add_zero]
        simp only [Option.map_some, e, atMostTwo_ren]
        split
        · rfl
        · rw [← e]; rfl
    · simp only [hb]
      unfold generateSwarm
      cases hi : cfg.initPos with
      | some p =>
        cases hbd : cfg.bounds with
        | none => rfl
        | some b =>
          simp only [Option.map_some]
          have hle : ∀ (x y : Vec d K) j, φ.pt x j ≤ φ.pt y j ↔ x (φ.perm j) ≤ y (φ.perm j) := by
            intro x y j
            rw [← not_lt, ← not_lt, Change.lt_iff hφ.scale]
          have hall : ∀ q : Fin d → Bool, ((List.finRange d).all fun j => q (φ.perm j)) =
              (List.finRange d).all q := by
            intro q
            rw [Bool.eq_iff_iff, List.all_eq_true, List.all_eq_true]
            constructor
            · intro h j _
              simpa using h (φ.perm.symm j) (List.mem_finRange _)
            · intro h j _
              exact h _ (List.mem_finRange _)
          have e1 : ∀ i, ((List.finRange d).all fun j => decide ((φ.bounds b).1 j ≤ φ.mat p i j)) =
              (List.finRange d).all fun j => decide (b.1 j ≤ p i j) := by
            intro i
            rw [← hall fun j => decide (b.1 j ≤ p i j)]
            congr 1
            funext j
            exact decide_eq_decide.2 (hle _ _ _)
          have e2 : ∀ i, ((List.finRange d).all fun j => decide (φ.mat p i j ≤ (φ.bounds b).2 j)) =
              (List.finRange d).all fun j => decide (p i j ≤ b.2 j) := by
            intro i
            rw [← hall fun j => decide (p i j ≤ b.2 j)]
            congr 1
            funext j
            exact decide_eq_decide.2 (hle _ _ _)
          simp only [e1, e2, Bool.false_eq_true, if_false]
          split <;> rfl
      | none =>
        rcases hs.2 with h | ⟨h, hc⟩ | h
        · exact absurd hi h
        · cases hbd : cfg.bounds with
          | none => exact absurd hbd h
          | some b =>
            refine congrArg Except.ok ?_
            funext i j
            rw [hr.pos]
            simp only [Change.mat, Change.pt, Change.bounds, Change.ren, hc]
            ring
        · cases hbd : cfg.bounds with
          | none =>
            refine congrArg Except.ok ?_
            funext i j
            rw [hr.pos]
            simp only [Change.mat, Change.pt, Change.ren, h]
            ring
          | some b =>
            refine congrArg Except.ok ?_
            funext i j
            rw [hr.pos]
            simp only [Change.mat, Change.pt, Change.bounds, Change.ren, h]
            ring
  have hvel : generateVelocity (cfg.clamp.map φ.clamp) r'.vel =
      φ.vmat (generateVelocity cfg.clamp r.vel) := by
    funext i j
    rw [hr.vel]
    unfold generateVelocity
    rcases hs.1 with h | h
    · cases hc : cfg.clamp with
      | none => exact absurd hc h
      | some c =>
        simp only [Option.map_some, Change.vmat, Change.vec, Change.clamp, Change.ren]
        ring
    · cases hc : cfg.clamp with
      | none =>
        simp only [Option.map_none, Change.vmat, Change.vec, Change.ren, h]
        ring
      | some c =>
        simp only [Option.map_some, Change.vmat, Change.vec, Change.clamp, Change.ren]
        ring
  unfold resetSwarm createSwarm
  rw [show (φ.cfg cfg).isBinary = cfg.isBinary from rfl,
    show (φ.cfg cfg).initPos = cfg.initPos.map φ.mat from rfl,
    show (φ.cfg cfg).bounds = cfg.bounds.map φ.bounds from rfl,
    show (φ.cfg cfg).clamp = cfg.clamp.map φ.clamp from rfl,
    show (φ.cfg cfg).options = cfg.options from rfl,
    show (φ.cfg cfg).center = φ.ren cfg.center from rfl]
  dsimp only
  rw [hpos, hvel]
  generalize (if cfg.isBinary then generateDiscreteSwarm cfg.isBinary cfg.initPos r.bits r.argsort
      else generateSwarm (if cfg.isBinary then none else cfg.bounds) cfg.center cfg.initPos
        r.pos) = o
  cases o with
  | error e => rfl
  | ok p =>
    exact ⟨rfl, rfl, rfl, rfl, funext fun _ => hg.pinf.symm, rfl, rfl, funext fun _ => hg.pinf.symm⟩

theorem construct_seen (hφ : φ.Fits cfg) (hs : φ.FitsStart cfg) (hg : CostMap g)
    {r1 r2 r1' r2' : InitDraw n d K} (h1 : InitSeen φ r1 r1') (h2 : InitSeen φ r2 r2') :
    ExRel (Seen φ g) (construct cfg r1 r2) (construct (φ.cfg cfg) r1' r2') := by
  have e1 := resetSwarm_seen hφ hs hg h1
  have e2 := resetSwarm_seen hφ hs hg h2
  unfold construct
  rw [show (φ.cfg cfg).kind = cfg.kind from rfl, show (φ.cfg cfg).args = cfg.args from rfl,
    show (φ.cfg cfg).ftolIter = cfg.ftolIter from rfl]
  split
  · rfl
  · split
    · rfl
    · cases ha : resetSwarm cfg r1 with
      | error e => rw [ha] at e1; rw [exRel_error e1]; rfl
      | ok a =>
        rw [ha] at e1
        obtain ⟨a', ha', -⟩ := exRel_ok e1
        rw [ha']
        dsimp only
        cases hb : resetSwarm cfg r2 with
        | error e => rw [hb] at e2; rw [exRel_error e2]; rfl
        | ok b =>
          rw [hb] at e2
          obtain ⟨b', hb', h⟩ := exRel_ok e2
          rw [hb']
          exact ⟨h, rfl, rfl, rfl, rfl, rfl, fun _ => rfl, rfl, rfl, rfl, rfl⟩

theorem runOps_seen (hφ : φ.Fits cfg) (hs : φ.FitsStart cfg) (hg : CostMap g)
    (hst : StopSeen cfg g) {ops ops' : List (Op n d K)}
    (ho : List.Forall₂ (OpSeen φ g) ops ops') (s s' : Opt n d K) (h : Seen φ g s s') :
    Seen φ g (runOps cfg s ops) (runOps (φ.cfg cfg) s' ops') := by
  induction ho generalizing s s' with
  | nil => exact h
  | cons hop _ ih =>
    refine ih _ _ ?_
    cases hop with
    | optimize hev hr => exact (optimize_seen hφ hg hst hev _ _ hr s s' h).1
    | reset hr =>
      next r r' =>
      have e := resetSwarm_seen hφ hs hg hr
      unfold stepOp reset
      dsimp only
      cases ha : resetSwarm cfg r with
      | error e' =>
        rw [ha] at e
        rw [exRel_error e]
        exact ⟨h.1, h.2, h.3, h.4, rfl, rfl, fun _ => rfl, rfl, rfl, h.10, h.11⟩
      | ok a =>
        rw [ha] at e
        obtain ⟨a', ha', h'⟩ := exRel_ok e
        rw [ha']
        exact ⟨h', h.2, h.3, h.4, rfl, rfl, fun _ => rfl, rfl, rfl, rfl, h.11⟩

theorem stopSeen_id (cfg : Config n d K) : StopSeen cfg (fun c => c) := fun _ _ => rfl

/-! ## C60 -/

/-- **C60.**  Changing the units of the parameters (coordinate `j` becomes
`scale j * x + shift j`, with positive scales, after renaming the dimensions) changes nothing but the
units: if bounds, `init_pos` and velocity clamp are given in the new units and the objective reads
the new units, then, with the same random numbers, the new optimizer can be constructed as well, after
any sequence of calls every position, velocity and history is the old one in the new units, costs
and `mean_pbest_history` are the same, and every further call has the same outcome in the new
units. -/
theorem C60_units (cfg : Config n d K) (φ : Change d K) (hφ : φ.Fits cfg) (hs : φ.FitsStart cfg)
    (r1 r2 r1' r2' : InitDraw n d K) (h1 : InitSeen φ r1 r1') (h2 : InitSeen φ r2 r2')
    (s0 : Opt n d K) (hc : construct cfg r1 r2 = .ok s0) :
    ∃ s0', construct (φ.cfg cfg) r1' r2' = .ok s0' ∧
      ∀ ops ops', List.Forall₂ (OpSeen φ fun c => c) ops ops' →
        Seen φ (fun c => c) (runOps cfg s0 ops) (runOps (φ.cfg cfg) s0' ops') ∧
        ∀ ev ev' iters nproc env env', EvSeen φ (fun c => c) ev ev' →
          (∀ i, DrawSeen φ (env i) (env' i)) →
          (optimize (φ.cfg cfg) ev' iters nproc env' (runOps (φ.cfg cfg) s0' ops')).2 =
            (optimize cfg ev iters nproc env (runOps cfg s0 ops)).2.map fun r => (r.1, φ.pt r.2) := by
  have h := construct_seen hφ hs CostMap.id h1 h2
  rw [hc] at h
  obtain ⟨s0', hc', hseen⟩ := exRel_ok h
  refine ⟨s0', hc', fun ops ops' ho => ?_⟩
  have h := runOps_seen hφ hs CostMap.id (stopSeen_id cfg) ho s0 s0' hseen
  exact ⟨h, fun ev ev' iters nproc env env' hev hr =>
    (optimize_seen hφ CostMap.id (stopSeen_id cfg) hev iters nproc hr _ _ h).2⟩

/-! ## C55 -/

/-- The positions translated by `a`. -/
def shiftBy (a : Vec d K) (x : Mat n d K) : Mat n d K := fun i j => x i j + a j

/-- The problem translated by `a`: bounds and `init_pos` are moved. -/
def Config.shiftBy (a : Vec d K) (cfg : Config n d K) : Config n d K :=
  { cfg with
    bounds := cfg.bounds.map fun b => (fun j => b.1 j + a j, fun j => b.2 j + a j)
    initPos := cfg.initPos.map (PySwarms.shiftBy a) }

/-- The same random numbers; the neighbour queries are made for the positions moved back. -/
def Draw.shiftBy (a : Vec d K) (r : Draw n d K) : Draw n d K :=
  { r with
    oracle := {
      knn := fun k p x => r.oracle.knn k p (PySwarms.shiftBy (fun j => -a j) x)
      delaunay := fun x => r.oracle.delaunay (PySwarms.shiftBy (fun j => -a j) x)
      choice := r.oracle.choice } }

/-- The call on the translated problem: the objective moves the positions back. -/
def Op.shiftBy (a : Vec d K) : Op n d K → Op n d K
  | .optimize ev iters nproc env =>
    .optimize (fun k x => ev k (PySwarms.shiftBy (fun j => -a j) x)) iters nproc
      fun i => (env i).shiftBy a
  | .reset r => .reset r

/-- Translation as a change of coordinates. -/
def Change.translate (a : Vec d K) : Change d K := ⟨fun _ => 1, a, Equiv.refl _⟩

theorem translate_mat (a : Vec d K) (x : Mat n d K) :
    (Change.translate a).mat x = shiftBy a x := by
  funext i j
  simp [Change.mat, Change.pt, Change.translate, shiftBy]

theorem translate_vmat (a : Vec d K) (x : Mat n d K) : (Change.translate a).vmat x = x := by
  funext i j
  simp [Change.vmat, Change.vec, Change.translate]

theorem shiftBy_back (a : Vec d K) (x : Mat n d K) :
    shiftBy (fun j => -a j) ((Change.translate a).mat x) = x := by
  rw [translate_mat]
  funext i j
  simp [shiftBy]

theorem translate_cfg (a : Vec d K) (cfg : Config n d K) :
    (Change.translate a).cfg cfg = cfg.shiftBy a := by
  have e1 : (Change.translate a).bounds =
      fun b => (fun j => b.1 j + a j, fun j => b.2 j + a j) := by
    funext b
    refine Prod.ext (funext fun j => ?_) (funext fun j => ?_) <;>
      simp [Change.bounds, Change.pt, Change.translate]
  have e2 : (Change.translate a).clamp = id := by
    funext c
    refine Prod.ext (funext fun j => ?_) (funext fun j => ?_) <;>
      simp [Change.clamp, Change.vec, Change.translate]
  have e3 : (Change.translate a).mat = shiftBy (n := n) a := by
    funext x
    exact translate_mat a x
  unfold Change.cfg Config.shiftBy
  rw [e1, e2, e3, Option.map_id]
  rfl

theorem translate_draw (a : Vec d K) (r : Draw n d K) :
    DrawSeen (Change.translate a) r (r.shiftBy a) := by
  refine ⟨rfl, rfl, rfl, ⟨fun k p x => ?_, fun x => ?_, fun k => rfl⟩, rfl, rfl⟩
  · show r.oracle.knn k p (shiftBy (fun j => -a j) ((Change.translate a).mat x)) = _
    rw [shiftBy_back]
  · show r.oracle.delaunay (shiftBy (fun j => -a j) ((Change.translate a).mat x)) = _
    rw [shiftBy_back]

theorem translate_ev (a : Vec d K) (ev : Nat → Mat n d K → Except Err (Costs n K)) :
    EvSeen (Change.translate a) (fun c => c) ev
      (fun k x => ev k (shiftBy (fun j => -a j) x)) := by
  intro k x
  dsimp only
  rw [shiftBy_back]
  cases ev k x <;> rfl

theorem translate_ops (a : Vec d K) (ops : List (Op n d K)) :
    List.Forall₂ (OpSeen (Change.translate a) fun c => c) ops (ops.map (Op.shiftBy a)) := by
  induction ops with
  | nil => exact .nil
  | cons op ops ih =>
    refine .cons ?_ ih
    cases op with
    | optimize ev iters nproc env =>
      exact .optimize (translate_ev a ev) fun i => translate_draw a (env i)
    | reset r => exact .reset ⟨rfl, rfl, rfl, rfl⟩

/-- **C55.**  Translating the problem translates the run.  For a continuous optimizer whose initial
swarm comes from `init_pos`, or from the bounds with `center = 1`: translate bounds and `init_pos`
by `a`, and let the objective move positions back by `a`.  Then with the same random numbers, after
any sequence of calls, all positions are translated by `a`; velocities, costs, the histories of costs
and so the stopping times are identical; the outcome of any further call is the same with the
returned position translated. -/
theorem C55_translation (cfg : Config n d K) (hk : cfg.kind ≠ .binary)
    (hs : cfg.initPos ≠ none ∨ (cfg.bounds ≠ none ∧ ∀ j, cfg.center j = 1))
    (a : Vec d K) (r1 r2 : InitDraw n d K) (s0 : Opt n d K) (hc : construct cfg r1 r2 = .ok s0) :
    ∃ s0', construct (cfg.shiftBy a) r1 r2 = .ok s0' ∧ ∀ ops s s',
      runOps cfg s0 ops = s → runOps (cfg.shiftBy a) s0' (ops.map (Op.shiftBy a)) = s' →
      s'.swarm.position = shiftBy a s.swarm.position ∧ s'.swarm.velocity = s.swarm.velocity ∧
      s'.swarm.pbestPos = shiftBy a s.swarm.pbestPos ∧ s'.swarm.pbestCost = s.swarm.pbestCost ∧
      s'.swarm.bestCost = s.swarm.bestCost ∧
      s'.posHistory = s.posHistory.map (shiftBy a) ∧ s'.velocityHistory = s.velocityHistory ∧
      s'.costHistory = s.costHistory ∧ s'.meanPbestHistory = s.meanPbestHistory ∧
      s'.meanNeighborHistory = s.meanNeighborHistory ∧
      s'.evals = s.evals.map (fun e => (shiftBy a e.1, e.2)) ∧
      ∀ ev iters nproc env,
        (optimize (cfg.shiftBy a) (fun k x => ev k (shiftBy (fun j => -a j) x)) iters nproc
          (fun i => (env i).shiftBy a) s').2 =
        (optimize cfg ev iters nproc env s).2.map fun r => (r.1, fun j => r.2 j + a j) := by
  have hφ : (Change.translate a).Fits cfg := ⟨fun _ => one_pos, fun h => absurd h hk⟩
  have hst : (Change.translate a).FitsStart cfg :=
    ⟨Or.inr fun _ => rfl, hs.imp id Or.inl⟩
  obtain ⟨s0', h0, h⟩ := C60_units cfg (Change.translate a) hφ hst r1 r2 r1 r2
    ⟨rfl, rfl, rfl, rfl⟩ ⟨rfl, rfl, rfl, rfl⟩ s0 hc
  rw [translate_cfg] at h0 h
  refine ⟨s0', h0, fun ops s s' hs hs' => ?_⟩
  obtain ⟨h, hopt⟩ := h ops _ (translate_ops a ops)
  rw [hs, hs'] at h hopt
  have hid : ∀ l : List (XR K), l.map (fun c => c) = l := fun l => List.map_id l
  refine ⟨?_, ?_, ?_, h.swarm.pbestCost, ?_, ?_, ?_, ?_, h.meanPbest fun _ => rfl, ?_, ?_, ?_⟩
  · exact h.swarm.position.trans (translate_mat a _)
  · exact h.swarm.velocity.trans (translate_vmat a _)
  · exact h.swarm.pbestPos.trans (translate_mat a _)
  · rw [h.swarm.bestCost]; cases s.swarm.bestCost <;> rfl
  · rw [h.pos]
    congr 1
    funext x
    exact translate_mat a x
  · rw [h.velocity]
    have : (Change.translate a).vmat (n := n) = fun x => x := by
      funext x; exact translate_vmat a x
    rw [this]
    exact List.map_id _
  · rw [h.cost, hid]
  · rw [h.meanNeighbor, hid]
  · rw [h.evals]
    congr 1
    funext e
    rw [translate_mat]
  · intro ev iters nproc env
    rw [hopt ev _ iters nproc env _ (translate_ev a ev) fun i => translate_draw a (env i)]
    congr 1
    funext r
    congr 1
    funext j
    simp [Change.pt, Change.translate]

/-- Non-vacuity of C55: a bounded run in dimension 1, translated by 3. -/
example : (match construct { Ex.gcfg 2 1 with bounds := some (fun _ => 0, fun _ => 5), center := fun _ => 1 }
        (Ex.init 2 1) (Ex.init 2 1),
      construct (Config.shiftBy (fun _ => 3) { Ex.gcfg 2 1 with
        bounds := some (fun _ => 0, fun _ => 5), center := fun _ => 1 }) (Ex.init 2 1) (Ex.init 2 1) with
    | .ok s, .ok s' =>
      match optimize { Ex.gcfg 2 1 with bounds := some (fun _ => 0, fun _ => 5), center := fun _ => 1 }
          (Ex.sphere 2 1) 3 none (fun _ => Ex.draw 2 1) s,
        optimize (Config.shiftBy (fun _ => 3) { Ex.gcfg 2 1 with
          bounds := some (fun _ => 0, fun _ => 5), center := fun _ => 1 })
          (fun k x => Ex.sphere 2 1 k (shiftBy (fun _ => -3) x)) 3 none
          (fun _ => Draw.shiftBy (fun _ => 3) (Ex.draw 2 1)) s' with
      | (t, .ok (c, p)), (t', .ok (c', p')) =>
        decide (c = c' ∧ p' 0 = p 0 + 3 ∧ t.posHistory.length = 3 ∧
          t'.swarm.position 1 0 = t.swarm.position 1 0 + 3 ∧
          t.swarm.position 1 0 ≠ s.swarm.position 1 0)
      | _, _ => false
    | _, _ => false) = true := by decide +kernel

/-! ## C61 -/

/-- Renaming of the dimensions as a change of coordinates. -/
def Change.rename (σ : Equiv.Perm (Fin d)) : Change d K := ⟨fun _ => 1, fun _ => 0, σ⟩

/-- In the renamed problem, coordinate `j` of a point or displacement is the old coordinate `σ j`. -/
theorem rename_coordinate (σ : Equiv.Perm (Fin d)) (x : Vec d K) (j : Fin d) :
    (Change.rename σ).pt x j = x (σ j) ∧ (Change.rename σ).vec x j = x (σ j) := by
  simp [Change.pt, Change.vec, Change.rename]

/-- **C61.**  No dimension is special: for all four optimizers and every configuration, renaming the
dimensions (of bounds, `init_pos`, clamp, `center`, random numbers and in the objective) renames them
in every position, velocity and history, and leaves costs and outcomes as they are. -/
theorem C61_dimensions (cfg : Config n d K) (σ : Equiv.Perm (Fin d))
    (r1 r2 r1' r2' : InitDraw n d K) (h1 : InitSeen (Change.rename (K := K) σ) r1 r1')
    (h2 : InitSeen (Change.rename (K := K) σ) r2 r2')
    (s0 : Opt n d K) (hc : construct cfg r1 r2 = .ok s0) :
    ∃ s0', construct ((Change.rename σ).cfg cfg) r1' r2' = .ok s0' ∧
      ∀ ops ops', List.Forall₂ (OpSeen (Change.rename σ) fun c => c) ops ops' →
        Seen (Change.rename σ) (fun c => c) (runOps cfg s0 ops)
          (runOps ((Change.rename σ).cfg cfg) s0' ops') ∧
        ∀ ev ev' iters nproc env env', EvSeen (Change.rename σ) (fun c => c) ev ev' →
          (∀ i, DrawSeen (Change.rename σ) (env i) (env' i)) →
          (optimize ((Change.rename σ).cfg cfg) ev' iters nproc env'
            (runOps ((Change.rename σ).cfg cfg) s0' ops')).2 =
          (optimize cfg ev iters nproc env (runOps cfg s0 ops)).2.map
            fun r => (r.1, fun j => r.2 (σ j)) := by
  have h := C60_units cfg (Change.rename σ) ⟨fun _ => one_pos, fun _ _ => ⟨rfl, rfl⟩⟩
    ⟨Or.inr fun _ => rfl, Or.inr (Or.inr fun _ => ⟨rfl, rfl⟩)⟩ r1 r2 r1' r2' h1 h2 s0 hc
  have e : (fun r : XR K × Vec d K => (r.1, (Change.rename σ).pt r.2)) =
      fun r => (r.1, fun j => r.2 (σ j)) := by
    funext r
    congr 1
    funext j
    exact (rename_coordinate σ r.2 j).1
  rw [e] at h
  exact h

/-- Non-vacuity of C60 and C61: two dimensions are exchanged and the first is measured in halves; the
bounded run of the new optimizer is the old one in the new units. -/
def Ex.swap : Change 2 ℚ := ⟨fun j => if j = 0 then 2 else 1, fun j => if j = 0 then 7 else 0, Equiv.swap 0 1⟩

def Ex.boxed : Config 2 2 ℚ := { Ex.gcfg 2 2 with
  bounds := some (fun _ => 0, fun _ => 5), center := fun _ => 1
  clamp := some (fun _ => -1, fun _ => 1) }

example : Ex.swap.Fits Ex.boxed ∧ Ex.swap.FitsStart Ex.boxed := by
  refine ⟨⟨fun j => ?_, fun h => by cases h⟩, ⟨Or.inl (by simp [Ex.boxed]),
    Or.inr (Or.inl ⟨by simp [Ex.boxed], fun _ => rfl⟩)⟩⟩
  unfold Ex.swap
  dsimp only
  split <;> norm_num

example : (match construct Ex.boxed (Ex.init 2 2) (Ex.init 2 2),
      construct (Ex.swap.cfg Ex.boxed) (Ex.init 2 2) (Ex.init 2 2) with
    | .ok s, .ok s' =>
      match optimize Ex.boxed (fun _ x => .ok fun i => .fin (x i 0 - 3 * x i 1)) 3 none
          (fun _ => Ex.draw 2 2) s,
        optimize (Ex.swap.cfg Ex.boxed)
          (fun _ x => .ok fun i => .fin (x i 1 - 3 * ((x i 0 - 7) / 2))) 3 none
          (fun _ => { Ex.draw 2 2 with bh := ⟨fun _ => 1 / 2, fun _ => 1 / 4, 8⟩ }) s' with
      | (t, .ok (c, p)), (t', .ok (c', p')) =>
        decide (c = c' ∧ p' 0 = 2 * p 1 + 7 ∧ p' 1 = p 0 ∧
          t'.swarm.position 0 0 = 2 * t.swarm.position 0 1 + 7 ∧
          t'.swarm.position 0 1 = t.swarm.position 0 0 ∧
          t.swarm.position 0 0 ≠ s.swarm.position 0 0)
      | _, _ => false
    | _, _ => false) = true := by decide +kernel

/-! ## C51 -/

/-- The call with the costs of the objective transformed by `g`. -/
def Op.mapCost (g : XR K → XR K) : Op n d K → Op n d K
  | .optimize ev iters nproc env =>
    .optimize (fun k x => (ev k x).map fun c i => g (c i)) iters nproc env
  | .reset r => .reset r

/-- A function on finite costs, extended by `nan`, `-inf`, `+inf` to themselves. -/
def XR.lift (g : K → K) : XR K → XR K
  | .fin a => .fin (g a)
  | x => x

omit [IsStrictOrderedRing K] [Transc K] [FloorRing K] in
/-- Every strictly increasing function is a cost transformation in the sense of C51. -/
theorem costMap_lift (g : K → K) (hg : StrictMono g) : CostMap (XR.lift g) := by
  refine ⟨fun a b => ?_, fun a => ?_, rfl⟩
  · cases a <;> cases b <;> simp [XR.lift, XR.lt, hg.lt_iff_lt]
  · cases a <;> rfl

def Change.same (d : Nat) (K : Type) [Field K] : Change d K := ⟨fun _ => 1, fun _ => 0, Equiv.refl _⟩

theorem same_pt (x : Vec d K) : (Change.same d K).pt x = x := by
  funext j; simp [Change.pt, Change.same]

theorem same_vec (x : Vec d K) : (Change.same d K).vec x = x := by
  funext j; simp [Change.vec, Change.same]

theorem same_mat (x : Mat n d K) : (Change.same d K).mat x = x := funext fun i => same_pt (x i)

theorem same_vmat (x : Mat n d K) : (Change.same d K).vmat x = x := funext fun i => same_vec (x i)

theorem same_cfg (cfg : Config n d K) : (Change.same d K).cfg cfg = cfg := by
  have e1 : (Change.same d K).bounds = id := by
    funext b; simp [Change.bounds, same_pt]
  have e2 : (Change.same d K).clamp = id := by
    funext b; simp [Change.clamp, same_vec]
  have e3 : (Change.same d K).mat (n := n) = id := by
    funext b; exact same_mat b
  unfold Change.cfg
  rw [e1, e2, e3]
  simp only [Option.map_id]
  rfl

theorem same_draw (r : Draw n d K) : DrawSeen (Change.same d K) r r :=
  ⟨rfl, rfl, rfl, ⟨fun k p x => congrArg _ (same_mat x), fun x => congrArg _ (same_mat x),
    fun _ => rfl⟩, rfl, rfl⟩

theorem same_ev (g : XR K → XR K) (ev : Nat → Mat n d K → Except Err (Costs n K)) :
    EvSeen (Change.same d K) g ev (fun k x => (ev k x).map fun c i => g (c i)) := by
  intro k x
  dsimp only
  rw [same_mat]

theorem same_ops (g : XR K → XR K) (ops : List (Op n d K)) :
    List.Forall₂ (OpSeen (Change.same d K) g) ops (ops.map (Op.mapCost g)) := by
  induction ops with
  | nil => exact .nil
  | cons op ops ih =>
    refine .cons ?_ ih
    cases op with
    | optimize ev iters nproc env => exact .optimize (same_ev g ev) fun i => same_draw (env i)
    | reset r => exact .reset ⟨rfl, rfl, rfl, rfl⟩

/-- With `ftol = -inf` the stop test is never positive. -/
theorem stopSeen_ninf (cfg : Config n d K) (hf : cfg.ftol = XR.ninf) (g : XR K → XR K) :
    StopSeen cfg g := by
  have : ∀ now yet, ftolDelta cfg.ftol now yet = false := by
    intro now yet
    have habs : ∀ x : XR K, XR.abs x = XR.nan ∨ XR.abs x = XR.pinf ∨
        ∃ a, 0 ≤ a ∧ XR.abs x = XR.fin a := by
      intro x
      cases x with
      | nan => exact Or.inl rfl
      | ninf => exact Or.inr (Or.inl rfl)
      | pinf => exact Or.inr (Or.inl rfl)
      | fin a =>
        refine Or.inr (Or.inr ?_)
        by_cases h : a < 0
        · exact ⟨-a, by linarith, by simp [XR.abs, h]⟩
        · exact ⟨a, by linarith, by simp [XR.abs, h]⟩
    unfold ftolDelta
    rw [hf]
    have hm : XR.mul XR.ninf (XR.add (XR.fin 1) (XR.abs yet)) = XR.nan ∨
        XR.mul XR.ninf (XR.add (XR.fin 1) (XR.abs yet)) = XR.ninf := by
      rcases habs yet with h | h | ⟨a, ha, h⟩
      · rw [h]; exact Or.inl rfl
      · rw [h]; exact Or.inr rfl
      · rw [h]
        right
        have : (0 : K) < 1 + a := by linarith
        simp [XR.add, XR.mul, XR.infTimes, this]
    rcases hm with h | h <;> rw [h]
    · cases (XR.abs (XR.sub now yet)) <;> rfl
    · cases (XR.abs (XR.sub now yet)) <;> rfl
  intro now yet
  rw [this, this]

/-- **C51.**  With `ftol = -inf` (the default), for all four optimizers: replace the objective `f`
by `g ∘ f`, where `g` respects comparisons, `nan` and `+inf` (for instance any strictly increasing
function of the finite costs, see `costMap_lift`).  After any sequence of calls, all positions,
velocities and best positions are unchanged and the costs are the old ones transformed by `g`; any
further call has the same outcome, with the returned cost transformed by `g`. -/
theorem C51_monotone (cfg : Config n d K) (hf : cfg.ftol = XR.ninf) (g : XR K → XR K)
    (hg : CostMap g) (r1 r2 : InitDraw n d K) (s0 : Opt n d K) (hc : construct cfg r1 r2 = .ok s0)
    (ops : List (Op n d K)) (s s' : Opt n d K) (hs : runOps cfg s0 ops = s)
    (hs' : runOps cfg s0 (ops.map (Op.mapCost g)) = s') :
    s'.swarm.position = s.swarm.position ∧ s'.swarm.velocity = s.swarm.velocity ∧
    s'.swarm.pbestPos = s.swarm.pbestPos ∧ s'.posHistory = s.posHistory ∧
    s'.velocityHistory = s.velocityHistory ∧
    s'.swarm.pbestCost = (fun i => g (s.swarm.pbestCost i)) ∧
    s'.swarm.bestCost = s.swarm.bestCost.map g ∧ s'.costHistory = s.costHistory.map g ∧
    (∀ ev iters nproc env,
      (optimize cfg (fun k x => (ev k x).map fun c i => g (c i)) iters nproc env s').2 =
      (optimize cfg ev iters nproc env s).2.map fun r => (g r.1, r.2)) := by
  have hφ : (Change.same d K).Fits cfg := ⟨fun _ => one_pos, fun _ _ => ⟨rfl, rfl⟩⟩
  have hst : (Change.same d K).FitsStart cfg :=
    ⟨Or.inr fun _ => rfl, Or.inr (Or.inr fun _ => ⟨rfl, rfl⟩)⟩
  have h0 := construct_seen (g := g) hφ hst hg (r1 := r1) (r2 := r2) (r1' := r1) (r2' := r2)
    ⟨rfl, rfl, rfl, rfl⟩ ⟨rfl, rfl, rfl, rfl⟩
  rw [same_cfg, hc] at h0
  have h := runOps_seen hφ hst hg (stopSeen_ninf cfg hf g) (same_ops g ops) s0 s0 h0
  rw [same_cfg, hs, hs'] at h
  refine ⟨?_, ?_, ?_, ?_, ?_, h.swarm.pbestCost, h.swarm.bestCost, h.cost, ?_⟩
  · exact h.swarm.position.trans (same_mat _)
  · exact h.swarm.velocity.trans (same_vmat _)
  · exact h.swarm.pbestPos.trans (same_mat _)
  · rw [h.pos, show (Change.same d K).mat (n := n) = id from funext same_mat, List.map_id]
  · rw [h.velocity, show (Change.same d K).vmat (n := n) = id from funext same_vmat, List.map_id]
  · intro ev iters nproc env
    have := (optimize_seen hφ hg (stopSeen_ninf cfg hf g) (same_ev g ev) iters nproc
      (fun i => same_draw (env i)) s s' h).2
    rw [same_cfg] at this
    rw [this]
    congr 1
    funext r
    rw [same_pt]

/-- Non-vacuity of C51: the cost `x²` and the cost `x² * 3 - 1`. -/
example : (match construct (Ex.rcfg 3 1 false 2) (Ex.init 3 1) (Ex.init 3 1) with
    | .ok s =>
      match optimize (Ex.rcfg 3 1 false 2) (Ex.sphere 3 1) 3 none (fun _ => Ex.draw 3 1) s,
        optimize (Ex.rcfg 3 1 false 2) (fun k x => (Ex.sphere 3 1 k x).map fun c i =>
          XR.lift (fun a => 3 * a - 1) (c i)) 3 none (fun _ => Ex.draw 3 1) s with
      | (t, .ok (_, p)), (t', .ok (c', p')) =>
        decide (c' = .fin (-1) ∧ p 0 = p' 0 ∧ t'.swarm.position 2 0 = t.swarm.position 2 0 ∧
          t.swarm.position 2 0 ≠ s.swarm.position 2 0)
      | _, _ => false
    | _ => false) = true := by decide +kernel

end PySwarms
