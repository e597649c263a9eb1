import Verif.Lemmas.Star
import Verif.Lemmas.Runs
import Verif.Lemmas.Sim
import Verif.Examples

/-!
# Parameters the objective ignores (C82)

`ι : Fin e → Fin d` names the parameters that matter: parameter `j` of the small problem is parameter
`ι j` of the large one.
-/

set_option linter.unusedSectionVars false

namespace PySwarms

variable {n d e : Nat} {K : Type} [Field K] [LinearOrder K] [IsStrictOrderedRing K] [Transc K]
  [FloorRing K]

/-! ### Specification -/

/-- The coordinates that matter. -/
def keep (ι : Fin e → Fin d) {α : Type} (v : Fin d → α) : Fin e → α := fun j => v (ι j)

/-- The columns that matter. -/
def keepM (ι : Fin e → Fin d) (x : Mat n d K) : Mat n e K := fun i j => x i (ι j)

/-- The best position(s), restricted to the coordinates that matter. -/
def BestPos.keep (ι : Fin e → Fin d) : BestPos n d K → BestPos n e K
  | .empty => .empty
  | .single v => .single (PySwarms.keep ι v)
  | .perParticle m => .perParticle (keepM ι m)

/-- The optimizer for the parameters that matter. -/
def Config.keep (ι : Fin e → Fin d) (cfg : Config n d K) : Config n e K where
  kind := cfg.kind
  options := cfg.options
  args := cfg.args
  bounds := cfg.bounds.map fun b => (PySwarms.keep ι b.1, PySwarms.keep ι b.2)
  clamp := cfg.clamp.map fun c => (PySwarms.keep ι c.1, PySwarms.keep ι c.2)
  center := PySwarms.keep ι cfg.center
  initPos := cfg.initPos.map (keepM ι)
  ohStrategy := cfg.ohStrategy
  bhStrategy := cfg.bhStrategy
  vhStrategy := cfg.vhStrategy
  ftol := cfg.ftol
  ftolIter := cfg.ftolIter

/-- The optimizers covered: Star and Random topologies (which do not look at positions), and
strategies that treat every coordinate by itself; a periodic boundary must not have width 0. -/
structure Config.Coordinatewise (cfg : Config n d K) : Prop where
  kind : cfg.kind = .globalBest ∨ cfg.kind = .general .star ∨ ∃ st, cfg.kind = .general (.random st)
  bh : cfg.bounds = none ∨ cfg.bhStrategy = "nearest" ∨ cfg.bhStrategy = "intermediate" ∨
    (cfg.bhStrategy = "periodic" ∧ ∀ b, cfg.bounds = some b → ∀ j, b.1 j ≠ b.2 j)
  vh : cfg.vhStrategy = "unmodified" ∨ cfg.vhStrategy = "adjust"

/-- The same random numbers for the parameters that matter. -/
structure DrawKeep (ι : Fin e → Fin d) (r : Draw n d K) (r' : Draw n e K) : Prop where
  r1 : r'.r1 = keepM ι r.r1
  r2 : r'.r2 = keepM ι r.r2
  choice : r'.oracle.choice = r.oracle.choice
  oh : r'.oh = r.oh

/-- The same random numbers for the initial swarm. -/
structure InitKeep (ι : Fin e → Fin d) (r : InitDraw n d K) (r' : InitDraw n e K) : Prop where
  pos : r'.pos = keepM ι r.pos
  vel : r'.vel = keepM ι r.vel

/-- The objective `ev` only looks at the parameters that matter, where it is `ev'`; its costs are
below infinity. -/
structure EvKeep (ι : Fin e → Fin d) (ev : Nat → Mat n d K → Except Err (Costs n K))
    (ev' : Nat → Mat n e K → Except Err (Costs n K)) : Prop where
  ignores : ∀ k x, ev k x = ev' k (keepM ι x)
  finite : ∀ k x c, ev k x = .ok c → ∀ i, XR.lt (c i) XR.pinf = true

/-- The second optimizer is the first one, restricted to the parameters that matter: positions,
velocities, personal bests, best positions, histories and evaluations are restricted, costs are the
same. -/
structure Restricts (ι : Fin e → Fin d) (s : Opt n d K) (s' : Opt n e K) : Prop where
  position : s'.swarm.position = keepM ι s.swarm.position
  velocity : s'.swarm.velocity = keepM ι s.swarm.velocity
  options : s'.swarm.options = s.swarm.options
  pbestPos : s'.swarm.pbestPos = keepM ι s.swarm.pbestPos
  pbestCost : s'.swarm.pbestCost = s.swarm.pbestCost
  bestPos : s'.swarm.bestPos = s.swarm.bestPos.keep ι
  bestCost : s'.swarm.bestCost = s.swarm.bestCost
  currentCost : s'.swarm.currentCost = s.swarm.currentCost
  top : s'.top = s.top
  bhMem : s'.bhMem = s.bhMem.map (keepM ι)
  vhMem : s'.vhMem = s.vhMem.map (keepM ι)
  cost : s'.costHistory = s.costHistory
  meanPbest : s'.meanPbestHistory = s.meanPbestHistory
  meanNeighbor : s'.meanNeighborHistory = s.meanNeighborHistory
  pos : s'.posHistory = s.posHistory.map (keepM ι)
  vel : s'.velocityHistory = s.velocityHistory.map (keepM ι)
  evals : s'.evals = s.evals.map fun x => (keepM ι x.1, x.2)
  openPools : s'.openPools = s.openPools

/-- The second call is the first one, restricted to the parameters that matter. -/
inductive OpKeep (ι : Fin e → Fin d) : Op n d K → Op n e K → Prop
  | optimize {ev ev' iters nproc env env'} (h : EvKeep ι ev ev')
      (he : ∀ i, DrawKeep ι (env i) (env' i)) :
      OpKeep ι (.optimize ev iters nproc env) (.optimize ev' iters nproc env')
  | reset {r r'} (h : InitKeep ι r r') : OpKeep ι (.reset r) (.reset r')

/-! ### Helper lemmas -/

variable {ι : Fin e → Fin d}

/-- A best cost comes with a best position. -/
def BestNonempty (s : Swarm n d K) : Prop := s.bestCost ≠ none → s.bestPos ≠ .empty

/-- Personal best costs are infinite or below. -/
def PbUsable (s : Swarm n d K) : Prop := ∀ i, s.pbestCost i = XR.pinf ∨ XR.lt (s.pbestCost i) XR.pinf = true

theorem tempVelocity_keep (c1 c2 w : K) (r1 r2 : Mat n d K) (s : Swarm n d K) (s' : Swarm n e K)
    (h1 : s'.position = keepM ι s.position) (h2 : s'.velocity = keepM ι s.velocity)
    (h3 : s'.pbestPos = keepM ι s.pbestPos) (h4 : s'.bestPos = s.bestPos.keep ι) :
    tempVelocity c1 c2 w (keepM ι r1) (keepM ι r2) s' = keepM ι (tempVelocity c1 c2 w r1 r2 s) := by
  funext i j
  have hrow : s'.bestPos.row s'.position i j = s.bestPos.row s.position i (ι j) := by
    rw [h4, h1]
    cases s.bestPos <;> rfl
  unfold tempVelocity
  simp only [hrow]
  rw [h1, h2, h3]
  rfl

theorem clampOpt_keep (c : Option (Clamp d K)) (v : Mat n d K) :
    clampOpt (c.map fun c => (keep ι c.1, keep ι c.2)) (keepM ι v) = keepM ι (clampOpt c v) := by
  cases c <;> rfl

theorem vhCall_keep {st : String} (hst : st = "unmodified" ∨ st = "adjust")
    (mem : Option (Mat n d K)) (c : Option (Clamp d K)) (p : Mat n d K)
    (b : Option (Bounds d K)) (b' : Option (Bounds e K)) (v : Mat n d K) :
    vhCall st (mem.map (keepM ι)) (c.map fun c => (keep ι c.1, keep ι c.2))
        { position := some (keepM ι p), bounds := some b' } (keepM ι v) =
      ((vhCall st mem c { position := some p, bounds := some b } v).1.map (keepM ι),
       (vhCall st mem c { position := some p, bounds := some b } v).2.map (keepM ι)) := by
  rcases hst with rfl | rfl
  · simp only [vhCall, if_true, vhUnmodified, clampOpt_keep]
    rfl
  · simp only [vhCall, show ("adjust" : String) ≠ "unmodified" by decide, if_false, if_true,
      vhAdjust]
    cases mem with
    | none => rfl
    | some m =>
      have : (fun i j => keepM ι p i j - keepM ι m i j) = keepM ι fun i j => p i j - m i j := rfl
      simp only [Option.map_some, this, clampOpt_keep]
      rfl

theorem bhCall_keep {st : String} {b : Bounds d K}
    (hst : st = "nearest" ∨ st = "intermediate" ∨ (st = "periodic" ∧ ∀ j, b.1 j ≠ b.2 j))
    (mem : Option (Mat n d K)) (r : BHDraw d K) (r' : BHDraw e K) (x : Mat n d K) :
    bhCall st (mem.map (keepM ι)) (keep ι b.1, keep ι b.2) r' (keepM ι x) =
      ((bhCall st mem b r x).1.map (keepM ι), (bhCall st mem b r x).2.map (keepM ι)) := by
  rcases hst with rfl | rfl | ⟨rfl, hne⟩
  · rfl
  · simp only [bhCall, show ("intermediate" : String) ≠ "nearest" by decide,
      show ("intermediate" : String) ≠ "reflective" by decide,
      show ("intermediate" : String) ≠ "shrink" by decide,
      show ("intermediate" : String) ≠ "random" by decide, if_false, if_true, bhIntermediate]
    cases mem <;> rfl
  · simp only [bhCall, show ("periodic" : String) ≠ "nearest" by decide,
      show ("periodic" : String) ≠ "reflective" by decide,
      show ("periodic" : String) ≠ "shrink" by decide,
      show ("periodic" : String) ≠ "random" by decide,
      show ("periodic" : String) ≠ "intermediate" by decide, if_false, if_true, bhPeriodic]
    have h1 : ∀ j, ¬ (|b.2 j - b.1 j| = 0) := fun j h =>
      hne j (sub_eq_zero.1 (abs_eq_zero.1 h)).symm
    rw [if_neg (by simp [keep, h1]), if_neg (by simp [h1])]
    rfl

theorem computeVelocity_keep {st : String} (hst : st = "unmodified" ∨ st = "adjust")
    (s : Swarm n d K) (s' : Swarm n e K) (hb : s.bestPos ≠ .empty)
    (h0 : s'.options = s.options)
    (h1 : s'.position = keepM ι s.position) (h2 : s'.velocity = keepM ι s.velocity)
    (h3 : s'.pbestPos = keepM ι s.pbestPos) (h4 : s'.bestPos = s.bestPos.keep ι)
    (c : Option (Clamp d K)) (mem : Option (Mat n d K)) (b : Option (Bounds d K))
    (b' : Option (Bounds e K)) (r1 r2 : Mat n d K) :
    computeVelocity s' (c.map fun c => (keep ι c.1, keep ι c.2)) st (mem.map (keepM ι)) b'
        (keepM ι r1) (keepM ι r2) =
      ((computeVelocity s c st mem b r1 r2).1.map (keepM ι),
       (computeVelocity s c st mem b r1 r2).2.map (keepM ι)) := by
  unfold computeVelocity
  rw [h0]
  split
  · next c1 c2 w _ _ _ =>
    dsimp only
    rw [tempVelocity_keep c1 c2 w r1 r2 s s' h1 h2 h3 h4, h1, h4]
    have key := vhCall_keep (ι := ι) hst mem c s.position b b' (tempVelocity c1 c2 w r1 r2 s)
    cases hB : s.bestPos with
    | empty => exact absurd hB hb
    | single v => exact key
    | perParticle m => exact key
  · rfl

theorem starGbest_keep (t : TopState n) (s : Swarm n d K) (s' : Swarm n e K)
    (h3 : s'.pbestPos = keepM ι s.pbestPos) (h4 : s'.bestPos = s.bestPos.keep ι)
    (h5 : s'.pbestCost = s.pbestCost) (h6 : s'.bestCost = s.bestCost) :
    starGbest t s' = ((starGbest t s).1, (starGbest t s).2.map fun g => (g.1.keep ι, g.2)) := by
  unfold starGbest Swarm.bestCostVal
  rw [h3, h4, h5, h6]
  dsimp only
  cases npArgmin s.pbestCost with
  | none => rfl
  | some k =>
    dsimp only
    split <;> rfl

theorem nbrBest_keep (nbr : Fin n → List (Fin n)) (s : Swarm n d K) (s' : Swarm n e K)
    (h3 : s'.pbestPos = keepM ι s.pbestPos) (h5 : s'.pbestCost = s.pbestCost) :
    nbrBest nbr s' = (nbrBest nbr s).map fun g => (g.1.keep ι, g.2) := by
  unfold nbrBest gatherBest
  rw [h3, h5]
  split
  · rfl
  · split <;> rfl

theorem callGbest_keep (cfg : Config n d K) (hcfg : cfg.Coordinatewise) (o : Oracle n d K)
    (o' : Oracle n e K) (ho : o'.choice = o.choice) (t : TopState n)
    (s : Swarm n d K) (s' : Swarm n e K)
    (h3 : s'.pbestPos = keepM ι s.pbestPos) (h4 : s'.bestPos = s.bestPos.keep ι)
    (h5 : s'.pbestCost = s.pbestCost) (h6 : s'.bestCost = s.bestCost) :
    callGbest (cfg.keep ι) o' t s' =
      ((callGbest cfg o t s).1, (callGbest cfg o t s).2.map fun g => (g.1.keep ι, g.2)) := by
  unfold callGbest
  rw [show (cfg.keep ι).kind = cfg.kind from rfl, show (cfg.keep ι).args = cfg.args from rfl]
  rcases hcfg.kind with hk | hk | ⟨st, hk⟩ <;> simp only [hk, computeGbest]
  · exact starGbest_keep t s s' h3 h4 h5 h6
  · exact starGbest_keep t s s' h3 h4 h5 h6
  · cases cfg.args.k with
    | none => rfl
    | some k =>
      dsimp only
      unfold randomGbest
      rw [ho]
      dsimp only
      generalize (if (st && t.neighbor.isNone || !st) = true then
        match randomNeighbors k (o.choice k) with
        | .error e => Except.error e
        | .ok a => .ok ({ neighbor := some (adjLists a), ndim := 1 } : TopState n)
        else .ok t) = q
      cases q with
      | error e => rfl
      | ok t1 =>
        dsimp only
        cases t1.neighbor with
        | none => rfl
        | some nbr => exact Prod.ext rfl (nbrBest_keep nbr s s' h3 h5)

/-- After a successful best-position computation there is a best position. -/
theorem callGbest_nonempty (cfg : Config n d K) (hcfg : cfg.Coordinatewise) (o : Oracle n d K)
    (t t' : TopState n) (s : Swarm n d K) (hs : BestNonempty s)
    (hp : ∀ i, XR.lt (s.pbestCost i) XR.pinf = true) (g : GBest n d K)
    (h : callGbest cfg o t s = (t', .ok g)) : g.1 ≠ .empty := by
  have hstar : ∀ t', starGbest t s = (t', .ok g) → g.1 ≠ .empty := by
    intro t' h
    unfold starGbest at h
    dsimp only at h
    split at h
    · cases h
    · next k _ =>
      split at h
      · cases h; simp
      · next hlt =>
        cases h
        apply hs
        intro hn
        rw [Swarm.bestCostVal, hn] at hlt
        exact hlt (hp k)
  unfold callGbest at h
  rcases hcfg.kind with hk | hk | ⟨st, hk⟩ <;> simp only [hk, computeGbest] at h
  · exact hstar t' h
  · exact hstar t' h
  · split at h
    · unfold randomGbest at h
      dsimp only at h
      split at h
      · cases h
      · split at h
        · cases h
        · unfold nbrBest gatherBest at h
          split at h
          · cases h
          · split at h
            · cases h
            · cases h; simp
    · cases h

theorem recordEval_restricts (c : Costs n K) {s : Opt n d K} {s' : Opt n e K}
    (h : Restricts ι s s') : Restricts ι (recordEval c s) (recordEval c s') := by
  obtain ⟨h1, h2, h3, h4, h5, h6, h7, h8, h9, h10, h11, h12, h13, h14, h15, h16, h17, h18⟩ := h
  refine ⟨h1, h2, h3, ?_, ?_, h6, h7, rfl, h9, h10, h11, h12, h13, h14, h15, h16, ?_, h18⟩
  · funext i j
    simp only [recordEval, computePbest, h5, h4, h1, keepM]
  · funext i
    simp only [recordEval, computePbest, h5]
  · simp only [recordEval, h17, h1, List.map_append, List.map_cons, List.map_nil]

theorem recordBest_restricts (t : TopState n) (g : GBest n d K) {s : Opt n d K} {s' : Opt n e K}
    (h : Restricts ι s s') :
    Restricts ι (recordBest t g s) (recordBest t (g.1.keep ι, g.2) s') := by
  obtain ⟨h1, h2, h3, h4, h5, h6, h7, h8, h9, h10, h11, h12, h13, h14, h15, h16, h17, h18⟩ := h
  refine ⟨h1, h2, h3, h4, h5, rfl, rfl, h8, rfl, h10, h11, ?_, ?_, ?_, ?_, ?_, h17, h18⟩
  · simp only [recordBest, Opt.populateHistory, Swarm.bestCostVal, h12]
  · simp only [recordBest, Opt.populateHistory, h13, h5]
  · simp only [recordBest, Opt.populateHistory, Swarm.bestCostVal, h14]
  · simp only [recordBest, Opt.populateHistory, h15, h1, List.map_append, List.map_cons,
      List.map_nil]
  · simp only [recordBest, Opt.populateHistory, h16, h2, List.map_append, List.map_cons,
      List.map_nil]

theorem callPosition_keep (cfg : Config n d K) (hcfg : cfg.Coordinatewise) (r : Draw n d K)
    (r' : Draw n e K) (mem : Option (Mat n d K)) (s : Swarm n d K) (s' : Swarm n e K)
    (h1 : s'.position = keepM ι s.position) (h2 : s'.velocity = keepM ι s.velocity) :
    callPosition (cfg.keep ι) r' (mem.map (keepM ι)) s' =
      ((callPosition cfg r mem s).1.map (keepM ι), (callPosition cfg r mem s).2.map (keepM ι)) := by
  have hx : (fun i j => s'.position i j + s'.velocity i j) =
      keepM ι fun i j => s.position i j + s.velocity i j := by
    rw [h1, h2]; rfl
  have key : computePosition s' (cfg.keep ι).bounds cfg.bhStrategy (mem.map (keepM ι)) r'.bh =
      ((computePosition s cfg.bounds cfg.bhStrategy mem r.bh).1.map (keepM ι),
       (computePosition s cfg.bounds cfg.bhStrategy mem r.bh).2.map (keepM ι)) := by
    unfold computePosition
    dsimp only
    rw [hx, show (cfg.keep ι).bounds = cfg.bounds.map fun b => (keep ι b.1, keep ι b.2) from rfl]
    cases hb : cfg.bounds with
    | none => rfl
    | some b =>
      refine bhCall_keep ?_ mem r.bh r'.bh _
      rcases hcfg.bh with h | h | h | ⟨h, hw⟩
      · rw [hb] at h; cases h
      · exact .inl h
      · exact .inr (.inl h)
      · exact .inr (.inr ⟨h, hw b hb⟩)
  unfold callPosition
  rw [show (cfg.keep ι).kind = cfg.kind from rfl]
  rcases hcfg.kind with hk | hk | ⟨st, hk⟩ <;> simp only [hk] <;> exact key

theorem moveSwarm_restricts (cfg : Config n d K) (hcfg : cfg.Coordinatewise) {r : Draw n d K}
    {r' : Draw n e K} (hr : DrawKeep ι r r') (iters i : Nat) {s : Opt n d K} {s' : Opt n e K}
    (hb : s.swarm.bestPos ≠ .empty) (h : Restricts ι s s') :
    Restricts ι (moveSwarm cfg r iters i s).1 (moveSwarm (cfg.keep ι) r' iters i s').1 ∧
      (moveSwarm (cfg.keep ι) r' iters i s').2 = (moveSwarm cfg r iters i s).2 := by
  have ho : callOptions (cfg.keep ι) iters i r' s'.swarm = callOptions cfg iters i r s.swarm := by
    unfold callOptions
    rw [h.options, hr.oh]
    rfl
  unfold moveSwarm
  rw [ho]
  split
  · exact ⟨h, rfl⟩
  · next o _ =>
    dsimp only
    have hv := computeVelocity_keep (ι := ι) hcfg.vh { s.swarm with options := o }
      { s'.swarm with options := o } hb rfl h.position h.velocity h.pbestPos h.bestPos cfg.clamp
      s.vhMem (velBounds cfg) (velBounds (cfg.keep ι)) r.r1 r.r2
    rw [← h.vhMem, ← hr.r1, ← hr.r2] at hv
    rw [show (cfg.keep ι).clamp = cfg.clamp.map fun c => (keep ι c.1, keep ι c.2) from rfl,
      show (cfg.keep ι).vhStrategy = cfg.vhStrategy from rfl, hv]
    generalize computeVelocity { s.swarm with options := o } cfg.clamp cfg.vhStrategy s.vhMem
      (velBounds cfg) r.r1 r.r2 = q
    obtain ⟨h1, h2, h3, h4, h5, h6, h7, h8, h9, h10, h11, h12, h13, h14, h15, h16, h17, h18⟩ := h
    obtain ⟨vm, er | v⟩ := q
    · exact ⟨⟨h1, h2, rfl, h4, h5, h6, h7, h8, h9, h10, rfl, h12, h13, h14, h15, h16, h17, h18⟩, rfl⟩
    · dsimp only [Except.map]
      have hp := callPosition_keep (ι := ι) cfg hcfg r r' s.bhMem
        { s.swarm with options := o, velocity := v }
        { s'.swarm with options := o, velocity := keepM ι v } h1 rfl
      rw [← h10] at hp
      rw [hp]
      generalize callPosition cfg r s.bhMem { s.swarm with options := o, velocity := v } = q
      obtain ⟨bm, er | p⟩ := q
      · exact ⟨⟨h1, rfl, rfl, h4, h5, h6, h7, h8, h9, rfl, rfl, h12, h13, h14, h15, h16, h17, h18⟩,
          rfl⟩
      · exact ⟨⟨rfl, rfl, rfl, h4, h5, h6, h7, h8, h9, rfl, rfl, h12, h13, h14, h15, h16, h17, h18⟩,
          rfl⟩

/-- The invariant of the large run. -/
def KeepSound (s : Opt n d K) : Prop := BestNonempty s.swarm ∧ PbUsable s.swarm

theorem iterate_restricts (cfg : Config n d K) (hcfg : cfg.Coordinatewise)
    {ev : Nat → Mat n d K → Except Err (Costs n K)} {ev' : Nat → Mat n e K → Except Err (Costs n K)}
    (hev : EvKeep ι ev ev') {r : Draw n d K} {r' : Draw n e K} (hr : DrawKeep ι r r')
    (k iters i : Nat) (q : List Bool) {s : Opt n d K} {s' : Opt n e K} (hs : KeepSound s)
    (h : Restricts ι s s') :
    KeepSound (iterate cfg (ev k) r iters i q s).1 ∧
    Restricts ι (iterate cfg (ev k) r iters i q s).1 (iterate (cfg.keep ι) (ev' k) r' iters i q s').1 ∧
      (iterate (cfg.keep ι) (ev' k) r' iters i q s').2 = (iterate cfg (ev k) r iters i q s).2 := by
  unfold iterate
  have he : ev' k s'.swarm.position = ev k s.swarm.position := by
    rw [h.position, hev.ignores]
  rw [he]
  cases hc : ev k s.swarm.position with
  | error er => exact ⟨hs, h, rfl⟩
  | ok c =>
    dsimp only
    have h1 := recordEval_restricts c h
    have hlt := hev.finite k _ c hc
    have hpb : ∀ a, XR.lt ((recordEval c s).swarm.pbestCost a) XR.pinf = true := by
      intro a
      have : (recordEval c s).swarm.pbestCost a =
          if XR.lt (c a) (s.swarm.pbestCost a) then c a else s.swarm.pbestCost a := by
        simp only [recordEval, computePbest]
        cases XR.lt (c a) (s.swarm.pbestCost a) <;> rfl
      rw [this]
      rcases hs.2 a with h | h
      · rw [h, if_pos (hlt a)]; exact hlt a
      · split
        · exact hlt a
        · exact h
    have hbn : BestNonempty (recordEval c s).swarm := hs.1
    have hg := callGbest_keep (ι := ι) cfg hcfg r.oracle r'.oracle hr.choice (recordEval c s).top
      (recordEval c s).swarm (recordEval c s').swarm h1.pbestPos h1.bestPos h1.pbestCost h1.bestCost
    rw [h1.top, hg]
    have hne := fun t' => callGbest_nonempty cfg hcfg r.oracle (recordEval c s).top t'
      (recordEval c s).swarm hbn hpb
    generalize callGbest cfg r.oracle (recordEval c s).top (recordEval c s).swarm = G at hne
    obtain ⟨t, er | g⟩ := G
    · refine ⟨⟨hs.1, fun a => .inr (hpb a)⟩, ?_, rfl⟩
      obtain ⟨h1, h2, h3, h4, h5, h6, h7, h8, h9, h10, h11, h12, h13, h14, h15, h16, h17, h18⟩ := h1
      exact ⟨h1, h2, h3, h4, h5, h6, h7, h8, rfl, h10, h11, h12, h13, h14, h15, h16, h17, h18⟩
    · have hgne : g.1 ≠ .empty := hne t g rfl
      dsimp only [Except.map]
      have h2 := recordBest_restricts t g h1
      have hs2 : KeepSound (recordBest t g (recordEval c s)) := ⟨fun _ => hgne, fun a => .inr (hpb a)⟩
      have e1 : (recordBest t (g.1.keep ι, g.2) (recordEval c s')).swarm.bestCostVal =
          (recordBest t g (recordEval c s)).swarm.bestCostVal := by
        unfold Swarm.bestCostVal; rw [h2.bestCost]
      have e2 : (recordEval c s').swarm.bestCostVal = (recordEval c s).swarm.bestCostVal := by
        unfold Swarm.bestCostVal; rw [h1.bestCost]
      rw [e1, e2, show (cfg.keep ι).window = cfg.window from rfl,
        show (cfg.keep ι).ftol = cfg.ftol from rfl]
      split
      · exact ⟨hs2, h2, rfl⟩
      · obtain ⟨h3, h4⟩ := moveSwarm_restricts cfg hcfg hr iters i hgne h2
        obtain ⟨f1, f2, f3, f4, -⟩ := moveSwarm_frame cfg r iters i (recordBest t g (recordEval c s))
        have hs3 : KeepSound (moveSwarm cfg r iters i (recordBest t g (recordEval c s))).1 := by
          refine ⟨?_, ?_⟩
          · unfold BestNonempty; rw [f3, f4]; exact hs2.1
          · unfold PbUsable; rw [f2]; exact hs2.2
        generalize moveSwarm cfg r iters i (recordBest t g (recordEval c s)) = u at h3 h4 hs3
        generalize moveSwarm (cfg.keep ι) r' iters i
          (recordBest t (g.1.keep ι, g.2) (recordEval c s')) = u' at h3 h4
        obtain ⟨s3, er | ⟨⟩⟩ := u <;> obtain ⟨s3', er' | ⟨⟩⟩ := u' <;> simp only at h4 <;> cases h4
        · exact ⟨hs3, h3, rfl⟩
        · exact ⟨hs3, h3, rfl⟩

theorem loop_restricts (cfg : Config n d K) (hcfg : cfg.Coordinatewise)
    {ev : Nat → Mat n d K → Except Err (Costs n K)} {ev' : Nat → Mat n e K → Except Err (Costs n K)}
    (hev : EvKeep ι ev ev') {env : Nat → Draw n d K} {env' : Nat → Draw n e K}
    (hr : ∀ i, DrawKeep ι (env i) (env' i)) (iters m i : Nat) (q : List Bool) {s : Opt n d K}
    {s' : Opt n e K} (hs : KeepSound s) (h : Restricts ι s s') :
    KeepSound (loop cfg ev env iters m i q s).1 ∧
    Restricts ι (loop cfg ev env iters m i q s).1 (loop (cfg.keep ι) ev' env' iters m i q s').1 ∧
      (loop (cfg.keep ι) ev' env' iters m i q s').2 = (loop cfg ev env iters m i q s).2 := by
  induction m generalizing i q s s' with
  | zero => exact ⟨hs, h, rfl⟩
  | succ m ih =>
    obtain ⟨h1, h2, h3⟩ := iterate_restricts cfg hcfg hev (hr i) i iters i q hs h
    rw [loop, loop]
    generalize iterate cfg (ev i) (env i) iters i q s = u at h1 h2 h3
    generalize iterate (cfg.keep ι) (ev' i) (env' i) iters i q s' = u' at h2 h3
    obtain ⟨t, o⟩ := u
    obtain ⟨t', o'⟩ := u'
    simp only at h3
    subst h3
    cases o' with
    | error er => exact ⟨h1, h2, rfl⟩
    | ok f =>
      cases f with
      | stop => exact ⟨h1, h2, rfl⟩
      | «continue» q' => exact ih _ _ h1 h2

theorem optimize_restricts (cfg : Config n d K) (hcfg : cfg.Coordinatewise)
    {ev : Nat → Mat n d K → Except Err (Costs n K)} {ev' : Nat → Mat n e K → Except Err (Costs n K)}
    (hev : EvKeep ι ev ev') {env : Nat → Draw n d K} {env' : Nat → Draw n e K}
    (hr : ∀ i, DrawKeep ι (env i) (env' i)) (iters : Nat) (nproc : Option Nat) {s : Opt n d K}
    {s' : Opt n e K} (hs : KeepSound s) (h : Restricts ι s s') :
    KeepSound (optimize cfg ev iters nproc env s).1 ∧
    Restricts ι (optimize cfg ev iters nproc env s).1
      (optimize (cfg.keep ι) ev' iters nproc env' s').1 ∧
    (optimize (cfg.keep ι) ev' iters nproc env' s').2 =
      (optimize cfg ev iters nproc env s).2.map fun v => (v.1, keep ι v.2) := by
  have hb : (prepare (cfg.keep ι) s').bhMem = (prepare cfg s).bhMem.map (keepM ι) := by
    unfold prepare
    dsimp only
    rw [show (cfg.keep ι).kind = cfg.kind from rfl, h.position]
    rcases hcfg.kind with hk | hk | ⟨st, hk⟩ <;> rw [hk] <;> rfl
  have hv : (prepare (cfg.keep ι) s').vhMem = (prepare cfg s).vhMem.map (keepM ι) := by
    unfold prepare
    dsimp only
    rw [h.position]
    rfl
  unfold optimize
  by_cases hp : nproc = some 0
  · rw [if_pos hp, if_pos hp]
    refine ⟨hs, ?_, rfl⟩
    obtain ⟨h1, h2, h3, h4, h5, h6, h7, h8, h9, h10, h11, h12, h13, h14, h15, h16, h17, h18⟩ := h
    exact ⟨h1, h2, h3, h4, h5, h6, h7, h8, h9, hb, hv, h12, h13, h14, h15, h16, h17, h18⟩
  · rw [if_neg hp, if_neg hp]
    dsimp only
    have h0 : Restricts ι
        ({ prepare cfg s with openPools := s.openPools + (if nproc.isSome then 1 else 0) } : Opt n d K)
        ({ prepare (cfg.keep ι) s' with
            openPools := s'.openPools + (if nproc.isSome then 1 else 0) } : Opt n e K) := by
      obtain ⟨h1, h2, h3, h4, h5, h6, h7, h8, h9, h10, h11, h12, h13, h14, h15, h16, h17, h18⟩ := h
      refine ⟨h1, h2, h3, h4, rfl, h6, h7, h8, h9, hb, hv, h12, h13, h14, h15, h16, h17, ?_⟩
      show s'.openPools + _ = s.openPools + _
      rw [h18]
    have hs0 : KeepSound ({ prepare cfg s with
        openPools := s.openPools + (if nproc.isSome then 1 else 0) } : Opt n d K) :=
      ⟨hs.1, fun _ => .inl rfl⟩
    obtain ⟨h1, h2, h3⟩ := loop_restricts cfg hcfg hev hr iters iters 0 [] hs0 h0
    generalize loop cfg ev env iters iters 0 [] _ = u at h1 h2 h3
    generalize loop (cfg.keep ι) ev' env' iters iters 0 [] _ = u' at h2 h3
    obtain ⟨t, o⟩ := u
    obtain ⟨t', o'⟩ := u'
    simp only at h3
    subst h3
    cases o' with
    | error er => exact ⟨h1, h2, rfl⟩
    | ok f =>
      dsimp only at h1 h2 ⊢
      have hf : finish t' = (finish t).map fun v => (v.1, keep ι v.2) := by
        unfold finish
        rw [h2.bestCost, h2.pbestCost, h2.pbestPos]
        cases t.swarm.bestCost with
        | none => rfl
        | some c =>
          dsimp only
          cases npArgmin t.swarm.pbestCost <;> rfl
      rw [hf]
      cases finish t with
      | error er => exact ⟨h1, h2, rfl⟩
      | ok v =>
        obtain ⟨g1, g2, g3, g4, g5, g6, g7, g8, g9, g10, g11, g12, g13, g14, g15, g16, g17, g18⟩ := h2
        refine ⟨h1, ⟨g1, g2, g3, g4, g5, g6, g7, g8, g9, g10, g11, g12, g13, g14, g15, g16, g17, ?_⟩,
          rfl⟩
        show t'.openPools - _ = t.openPools - _
        rw [g18]

theorem resetSwarm_keep (cfg : Config n d K) (hcfg : cfg.Coordinatewise) {r : InitDraw n d K}
    {r' : InitDraw n e K} (hr : InitKeep ι r r') (sw : Swarm n d K) (h : resetSwarm cfg r = .ok sw) :
    ∃ sw', resetSwarm (cfg.keep ι) r' = .ok sw' ∧ Restricts ι { swarm := sw } { swarm := sw' } ∧
      KeepSound ({ swarm := sw } : Opt n d K) := by
  have hbin : cfg.isBinary = false := by
    unfold Config.isBinary
    rcases hcfg.kind with hk | hk | ⟨st, hk⟩ <;> rw [hk]
  have hbin' : (cfg.keep ι).isBinary = false := hbin
  unfold resetSwarm createSwarm at h ⊢
  rw [hbin] at h
  rw [hbin']
  simp only [Bool.false_eq_true, if_false] at h ⊢
  have hgen : ∀ p, generateSwarm cfg.bounds cfg.center cfg.initPos r.pos = .ok p →
      generateSwarm (cfg.keep ι).bounds (cfg.keep ι).center (cfg.keep ι).initPos r'.pos =
        .ok (keepM ι p) := by
    intro p hp
    unfold generateSwarm at hp ⊢
    simp only [Config.keep]
    cases hi : cfg.initPos with
    | none =>
      rw [hi] at hp
      cases hb : cfg.bounds with
      | none =>
        rw [hb] at hp
        cases hp
        rw [hr.pos]
        rfl
      | some b =>
        rw [hb] at hp
        cases hp
        rw [hr.pos]
        rfl
    | some x =>
      rw [hi] at hp
      cases hb : cfg.bounds with
      | none =>
        rw [hb] at hp
        cases hp
        rfl
      | some b =>
        rw [hb] at hp
        simp only [Option.map_some] at hp ⊢
        split at hp
        · next hin =>
          cases hp
          simp only [Bool.and_eq_true, List.all_eq_true, List.mem_finRange, decide_eq_true_eq,
            true_implies] at hin
          rw [if_pos]
          simp only [Bool.and_eq_true, List.all_eq_true, List.mem_finRange, decide_eq_true_eq,
            true_implies]
          exact ⟨fun i j => hin.1 i (ι j), fun i j => hin.2 i (ι j)⟩
        · cases hp
  have hvel : generateVelocity (cfg.keep ι).clamp r'.vel = keepM ι (generateVelocity cfg.clamp r.vel) := by
    rw [hr.vel]
    unfold generateVelocity
    cases hc : cfg.clamp with
    | none => simp only [Config.keep, hc, Option.map_none]; rfl
    | some c => simp only [Config.keep, hc, Option.map_some]; rfl
  cases hp : generateSwarm cfg.bounds cfg.center cfg.initPos r.pos with
  | error er => rw [hp] at h; cases h
  | ok p =>
    rw [hp] at h
    cases h
    rw [hgen p hp]
    refine ⟨_, rfl, ?_, ?_⟩
    · rw [hvel]
      exact ⟨rfl, rfl, rfl, rfl, rfl, rfl, rfl, rfl, rfl, rfl, rfl, rfl, rfl, rfl, rfl, rfl, rfl, rfl⟩
    · exact ⟨fun h => absurd rfl h, fun _ => .inl rfl⟩

/-- Whether a swarm can be created does not depend on the random numbers. -/
theorem resetSwarm_again (cfg : Config n d K) (hcfg : cfg.Coordinatewise) (r r' : InitDraw n d K)
    (sw : Swarm n d K) (h : resetSwarm cfg r = .ok sw) : ∃ sw', resetSwarm cfg r' = .ok sw' := by
  have hbin : cfg.isBinary = false := by
    unfold Config.isBinary
    rcases hcfg.kind with hk | hk | ⟨st, hk⟩ <;> rw [hk]
  unfold resetSwarm createSwarm at h ⊢
  rw [hbin] at h ⊢
  simp only [Bool.false_eq_true, if_false] at h ⊢
  unfold generateSwarm at h ⊢
  cases hi : cfg.initPos with
  | none =>
    cases hb : cfg.bounds <;> exact ⟨_, rfl⟩
  | some x =>
    rw [hi] at h
    cases hb : cfg.bounds with
    | none => exact ⟨_, rfl⟩
    | some b =>
      rw [hb] at h
      dsimp only at h ⊢
      split at h
      · next e h1 =>
        cases h
      · exact ⟨_, rfl⟩

/-! ### C82 -/

/-- **C82.**  Parameters the objective ignores do not disturb the others.  Let the objective look only
at the parameters `ι j`, with costs below infinity, and take a Star or Random topology and strategies
that treat every coordinate by itself.  If the optimizer for all parameters can be constructed, so can
the one for the parameters that matter; and with the same random numbers for those parameters, after
any sequence of calls its positions, velocities, personal bests, best positions, histories and
evaluations are those of the large optimizer restricted to these parameters, all costs are the same,
and every further call has the same outcome, with the returned position restricted. -/
theorem C82_ignored_parameters (cfg : Config n d K) (hcfg : cfg.Coordinatewise) (ι : Fin e → Fin d)
    (r1 r2 : InitDraw n d K) (r1' r2' : InitDraw n e K) (h1 : InitKeep ι r1 r1')
    (h2 : InitKeep ι r2 r2') (s0 : Opt n d K) (hc : construct cfg r1 r2 = .ok s0) :
    ∃ s0', construct (cfg.keep ι) r1' r2' = .ok s0' ∧
      ∀ ops ops', List.Forall₂ (OpKeep ι) ops ops' →
        Restricts ι (runOps cfg s0 ops) (runOps (cfg.keep ι) s0' ops') ∧
        ∀ ev ev' iters nproc env env', EvKeep ι ev ev' → (∀ i, DrawKeep ι (env i) (env' i)) →
          (optimize (cfg.keep ι) ev' iters nproc env' (runOps (cfg.keep ι) s0' ops')).2 =
            (optimize cfg ev iters nproc env (runOps cfg s0 ops)).2.map
              fun v => (v.1, fun j => v.2 (ι j)) := by
  have hcon := hc
  unfold construct at hc
  split at hc
  · cases hc
  · next hkp =>
    split at hc
    · cases hc
    · next hft =>
      split at hc
      · cases hc
      · next sw1 hs1 =>
        split at hc
        · cases hc
        · next sw2 hs2 =>
          cases hc
          obtain ⟨sw1', e1, -, -⟩ := resetSwarm_keep cfg hcfg h1 sw1 hs1
          obtain ⟨sw2', e2, hR, hS⟩ := resetSwarm_keep cfg hcfg h2 sw2 hs2
          refine ⟨{ swarm := sw2' }, ?_, ?_⟩
          · unfold construct
            rw [show (cfg.keep ι).kind = cfg.kind from rfl,
              show (cfg.keep ι).args = cfg.args from rfl,
              show (cfg.keep ι).ftolIter = cfg.ftolIter from rfl, if_neg hkp, hft, e1, e2]
          · intro ops ops' ho
            have key : KeepSound (runOps cfg { swarm := sw2 } ops) ∧
                Restricts ι (runOps cfg { swarm := sw2 } ops)
                  (runOps (cfg.keep ι) { swarm := sw2' } ops') := by
              clear hcon
              generalize ({ swarm := sw2 } : Opt n d K) = s at hR hS
              generalize ({ swarm := sw2' } : Opt n e K) = s' at hR
              induction ho generalizing s s' with
              | nil => exact ⟨hS, hR⟩
              | cons hop _ ih =>
                cases hop with
                | optimize hev hr =>
                  next iters nproc _ _ =>
                  obtain ⟨a, b, -⟩ := optimize_restricts cfg hcfg hev hr iters nproc hS hR
                  exact ih _ a _ b
                | reset hr =>
                  next r r' =>
                  obtain ⟨sw, hsw⟩ := resetSwarm_again cfg hcfg r1 r sw1 hs1
                  obtain ⟨sw', hsw', a, b⟩ := resetSwarm_keep cfg hcfg hr sw hsw
                  refine ih _ ?_ _ ?_
                  · unfold stepOp reset
                    dsimp only
                    rw [hsw]
                    exact b
                  · unfold stepOp reset
                    dsimp only
                    rw [hsw, hsw']
                    exact ⟨a.1, a.2, a.3, a.4, a.5, a.6, a.7, a.8, hR.top, hR.bhMem, hR.vhMem, rfl,
                      rfl, rfl, rfl, rfl, rfl, hR.openPools⟩
            refine ⟨key.2, ?_⟩
            intro ev ev' iters nproc env env' hev hr
            exact (optimize_restricts cfg hcfg hev hr iters nproc key.1 key.2).2.2

/-! ### The hypotheses can be met, and are needed -/

/-- A GlobalBestPSO in two dimensions, the second confined to `[0, 3/5]`. -/
def ignoreCfg (bh : String) : Config 1 2 ℚ where
  kind := .globalBest
  options := Ex.opts
  bounds := some (fun _ => 0, fun j => if j = 0 then 10 else 3 / 5)
  center := fun _ => 1
  initPos := some fun _ j => if j = 0 then 4 else 1 / 2
  bhStrategy := bh

/-- The objective `x²` of the first parameter. -/
def firstSquared (d : Nat) (hd : 0 < d) : Nat → Mat 1 d ℚ → Except Err (Costs 1 ℚ) := fun _ x =>
  .ok fun i => .fin (x i ⟨0, hd⟩ * x i ⟨0, hd⟩)

/-- The first parameter of the first particle at the end of a call of two iterations. -/
def firstAfter (o : Except Err (Opt 1 d ℚ)) (cfg : Config 1 d ℚ) (hd : 0 < d) : Option ℚ :=
  match o with
  | .error _ => none
  | .ok s =>
    match optimize cfg (firstSquared d hd) 2 none (fun _ => Ex.draw 1 d) s with
    | (s', .ok _) => some (s'.swarm.position 0 ⟨0, hd⟩)
    | _ => none

example : (ignoreCfg "nearest").Coordinatewise ∧ (ignoreCfg "periodic").Coordinatewise := by
  refine ⟨⟨.inl rfl, .inr (.inl rfl), .inl rfl⟩, ⟨.inl rfl, .inr (.inr (.inr ⟨rfl, ?_⟩)), .inl rfl⟩⟩
  intro b hb
  cases hb
  intro j
  dsimp only
  split <;> norm_num

example : EvKeep (fun _ : Fin 1 => (0 : Fin 2)) (firstSquared 2 (by decide))
    (firstSquared 1 (by decide)) := by
  refine ⟨fun k x => rfl, ?_⟩
  intro k x c h
  cases h
  intro i
  rfl

example : DrawKeep (fun _ : Fin 1 => (0 : Fin 2)) (Ex.draw 1 2) (Ex.draw 1 1) ∧
    InitKeep (fun _ : Fin 1 => (0 : Fin 2)) (Ex.init 1 2) (Ex.init 1 1) :=
  ⟨⟨rfl, rfl, rfl, rfl⟩, ⟨rfl, rfl⟩⟩

/-- With `nearest` the first parameter ends where it ends without the second one. -/
example : firstAfter (construct (ignoreCfg "nearest") (Ex.init 1 2) (Ex.init 1 2))
      (ignoreCfg "nearest") (by decide) =
    firstAfter (construct ((ignoreCfg "nearest").keep fun _ : Fin 1 => (0 : Fin 2)) (Ex.init 1 1)
      (Ex.init 1 1)) ((ignoreCfg "nearest").keep fun _ : Fin 1 => (0 : Fin 2)) (by decide) ∧
    firstAfter (construct (ignoreCfg "nearest") (Ex.init 1 2) (Ex.init 1 2))
      (ignoreCfg "nearest") (by decide) ≠ none := by
  decide +kernel

/-- **C82** (coupling).  With the boundary strategies `shrink` and `random` an ignored parameter does
disturb the others: when it leaves its bounds, the whole particle is moved.  In these two runs the
first parameter, the only one the objective looks at, ends elsewhere than in the run without the
second parameter, with the same random numbers. -/
theorem C82_row_strategies_couple : ∀ bh ∈ ["shrink", "random"],
    firstAfter (construct (ignoreCfg bh) (Ex.init 1 2) (Ex.init 1 2)) (ignoreCfg bh) (by decide) ≠
      none ∧
    firstAfter (construct (ignoreCfg bh) (Ex.init 1 2) (Ex.init 1 2)) (ignoreCfg bh) (by decide) ≠
    firstAfter (construct ((ignoreCfg bh).keep fun _ : Fin 1 => (0 : Fin 2)) (Ex.init 1 1)
      (Ex.init 1 1)) ((ignoreCfg bh).keep fun _ : Fin 1 => (0 : Fin 2)) (by decide) := by
  decide +kernel

end PySwarms
