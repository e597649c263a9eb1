import Verif.Lemmas.Gbest
import Verif.Lemmas.Runs
import Verif.Examples

/-!
# C72 A collapsed dimension never reopens
-/

set_option linter.unusedSectionVars false

namespace PySwarms

variable {n d : Nat} {K : Type} [Field K] [LinearOrder K] [IsStrictOrderedRing K] [Transc K]
  [FloorRing K]

/-- Specification: the swarm has collapsed onto the value `a` in dimension `j`: positions, personal
bests and the swarm's best agree there, and nothing moves. -/
structure Collapsed (j : Fin d) (a : K) (s : Swarm n d K) : Prop where
  position : ∀ i, s.position i j = a
  velocity : ∀ i, s.velocity i j = 0
  pbest : ∀ i, s.pbestPos i j = a
  best : match s.bestPos with
    | .empty => True
    | .single x => x j = a
    | .perParticle m => ∀ i, m i j = a

/-- Column `j` of an optional matrix is constantly `a`. -/
def MemAt (j : Fin d) (a : K) (m : Option (Mat n d K)) : Prop := ∀ x, m = some x → ∀ i, x i j = a

/-- Column `j` survives every boundary handler except `random`. -/
theorem bhCall_col {strategy : String} (hs : strategy ≠ "random") {b : Bounds d K} {r : BHDraw d K}
    {mem mem' : Option (Mat n d K)} {x y : Mat n d K} {j : Fin d} {a : K}
    (hm : MemAt j a mem) (hx : ∀ i, x i j = a) (h1 : b.1 j ≤ a) (h2 : a ≤ b.2 j)
    (h : bhCall strategy mem b r x = (mem', .ok y)) : ∀ i, y i j = a := by
  intro i
  have hi := hx i
  unfold bhCall at h
  split_ifs at h
  · cases h
    rw [bhNearest_apply, hi, if_neg (not_lt.2 h2), if_neg (not_lt.2 h1)]
  · have h := (Prod.ext_iff.1 h).2
    rw [bhReflective_coord h i j (by rw [hi]; exact h1) (by rw [hi]; exact h2), hi]
  · unfold bhShrink at h
    cases mem with
    | none => cases h; exact hi
    | some m =>
      have hmi := hm m rfl i
      dsimp only at h
      split at h
      · cases h
      · split at h
        · cases h
        · cases h
          dsimp only
          split
          · split
            · rw [hi, hmi]; ring
            · exact hi
          · exact hi
  · unfold bhIntermediate at h
    cases mem with
    | none => cases h; exact hi
    | some m =>
      cases h
      simp [isLow, isHigh, hi, not_lt.2 h1, not_lt.2 h2]
  · have h := (Prod.ext_iff.1 h).2
    rw [bhPeriodic_apply h i j]
    simp [hi, not_lt.2 h1, not_lt.2 h2]
  · cases h

theorem clampOpt_col {c : Option (Clamp d K)} {j : Fin d} (hc : ∀ b, c = some b → b.1 j ≤ 0 ∧ 0 ≤ b.2 j)
    {v : Mat n d K} {i : Fin n} (hv : v i j = 0) : clampOpt c v i j = 0 := by
  cases c with
  | none => exact hv
  | some b =>
    obtain ⟨h1, h2⟩ := hc b rfl
    simp only [clampOpt, applyClamp, hv, decide_eq_true_eq]
    split_ifs with g1 g2
    · exact le_antisymm g1 h2
    · exact le_antisymm h1 g2
    · rfl

/-- A zero column of the velocity survives every velocity handler when the positions agree there. -/
theorem vhCall_col {strategy : String} {c : Option (Clamp d K)} {bounds : Option (Bounds d K)}
    {mem mem' : Option (Mat n d K)} {p v w : Mat n d K} {j : Fin d} {a : K}
    (hc : ∀ b, c = some b → b.1 j ≤ 0 ∧ 0 ≤ b.2 j) (hm : MemAt j a mem) (hp : ∀ i, p i j = a)
    (hv : ∀ i, v i j = 0)
    (h : vhCall strategy mem c { position := some p, bounds := some bounds } v = (mem', .ok w)) :
    ∀ i, w i j = 0 := by
  intro i
  unfold vhCall at h
  split_ifs at h
  · cases h; exact clampOpt_col hc (hv i)
  · unfold vhAdjust at h
    dsimp only at h
    cases mem with
    | none => cases h; exact hv i
    | some m =>
      cases h
      exact clampOpt_col hc (by rw [hp i, hm m rfl i, sub_self])
  · have h := (Prod.ext_iff.1 h).2
    unfold vhInvert at h
    cases bounds with
    | none => cases h
    | some b =>
      cases h
      refine clampOpt_col hc ?_
      dsimp only
      split_ifs <;> simp [hv i]
  · have h := (Prod.ext_iff.1 h).2
    unfold vhZero at h
    cases bounds with
    | none => cases h
    | some b =>
      cases h
      dsimp only
      split_ifs <;> simp [hv i]
  · cases h

/-- The admissible configurations for dimension `j` and value `a`. -/
structure Admissible (cfg : Config n d K) (j : Fin d) (a : K) : Prop where
  kind : cfg.kind ≠ .binary
  clamp : ∀ b, cfg.clamp = some b → b.1 j ≤ 0 ∧ 0 ≤ b.2 j
  bounds : ∀ b, cfg.bounds = some b → b.1 j ≤ a ∧ a ≤ b.2 j
  strategy : cfg.bounds = none ∨ cfg.bhStrategy ≠ "random"

/-- The loop invariant: collapsed, handler memories included, and everything recorded after the
first `k` evaluations and `l` history entries has the value `a`. -/
structure CollapseInv (j : Fin d) (a : K) (E : List (Mat n d K × Costs n K)) (P : List (Mat n d K))
    (s : Opt n d K) : Prop where
  swarm : Collapsed j a s.swarm
  evals : ∃ E', s.evals = E ++ E' ∧ ∀ e ∈ E', ∀ i, e.1 i j = a
  history : ∃ P', s.posHistory = P ++ P' ∧ ∀ x ∈ P', ∀ i, x i j = a

theorem collapse_move {cfg : Config n d K} {j : Fin d} {a : K} (hcfg : Admissible cfg j a)
    (r : Draw n d K) (iters k : Nat) {s : Opt n d K} (hs : Collapsed j a s.swarm)
    (hb : MemAt j a s.bhMem) (hv : MemAt j a s.vhMem) :
    let s' := (moveSwarm cfg r iters k s).1
    Collapsed j a s'.swarm ∧ MemAt j a s'.bhMem ∧ MemAt j a s'.vhMem := by
  have hcs := moveSwarm_cases cfg r iters k s
  dsimp only
  generalize (moveSwarm cfg r iters k s).1 = s' at hcs ⊢
  generalize (moveSwarm cfg r iters k s).2 = o at hcs
  obtain ⟨h1, h2, h3, h4⟩ := hs
  have hvm : ∀ (o : Opts K) vm e, computeVelocity { s.swarm with options := o } cfg.clamp
      cfg.vhStrategy s.vhMem (velBounds cfg) r.r1 r.r2 = (vm, e) → MemAt j a vm := by
    intro o vm e h
    rcases computeVelocity_mem { s.swarm with options := o } cfg.clamp cfg.vhStrategy s.vhMem
      (velBounds cfg) r.r1 r.r2 with h' | h' <;> rw [h] at h' <;> dsimp only at h' <;> subst h'
    · exact hv
    · rintro x hx i; cases hx; exact h1 i
  have hvel : ∀ (o : Opts K) vm v, computeVelocity { s.swarm with options := o } cfg.clamp
      cfg.vhStrategy s.vhMem (velBounds cfg) r.r1 r.r2 = (vm, .ok v) → ∀ i, v i j = 0 := by
    intro o vm v h
    obtain ⟨c1, c2, w, _, _, _, h⟩ := computeVelocity_ok h
    refine vhCall_col hcfg.clamp hv h1 (fun i => ?_) h
    have hrow : s.swarm.bestPos.row s.swarm.position i j = a := by
      unfold BestPos.row
      cases hbp : s.swarm.bestPos with
      | empty => exact h1 i
      | single x => rw [hbp] at h4; exact h4
      | perParticle m => rw [hbp] at h4; exact h4 i
    simp only [tempVelocity, hrow, h1 i, h2 i, h3 i]
    ring
  have hpos : ∀ (o : Opts K) (v : Mat n d K) bm e, (∀ i, v i j = 0) →
      callPosition cfg r s.bhMem { s.swarm with options := o, velocity := v } = (bm, e) →
      MemAt j a bm ∧ ∀ p, e = .ok p → ∀ i, p i j = a := by
    intro o v bm e hv0 h
    have h' : computePosition { s.swarm with options := o, velocity := v } cfg.bounds cfg.bhStrategy
        s.bhMem r.bh = (bm, e) := by
      unfold callPosition at h
      cases hk : cfg.kind <;> rw [hk] at h
      case binary => exact absurd hk hcfg.kind
      all_goals exact h
    have hx : ∀ i, s.swarm.position i j + v i j = a := fun i => by rw [h1 i, hv0 i, add_zero]
    unfold computePosition at h'
    cases hbd : cfg.bounds with
    | none =>
      rw [hbd] at h'
      cases h'
      exact ⟨hb, fun p hp i => by cases hp; exact hx i⟩
    | some b =>
      rw [hbd] at h'
      dsimp only at h'
      have hst : cfg.bhStrategy ≠ "random" := by
        rcases hcfg.strategy with h | h
        · rw [hbd] at h; cases h
        · exact h
      obtain ⟨b1, b2⟩ := hcfg.bounds b hbd
      constructor
      · rcases bhCall_mem cfg.bhStrategy s.bhMem b r.bh
          (fun i j => s.swarm.position i j + v i j) with g | ⟨y, g⟩
        · rw [h'] at g; dsimp only at g; rw [g]; exact hb
        · have gy := bhCall_col hst hb hx b1 b2 g
          rw [h'] at g
          cases g
          rintro x hx' i; cases hx'; exact gy i
      · rintro p rfl
        exact bhCall_col hst hb hx b1 b2 h'
  cases hcs with
  | optError e h => exact ⟨⟨h1, h2, h3, h4⟩, hb, hv⟩
  | velError o vm e h hv' => exact ⟨⟨h1, h2, h3, h4⟩, hb, hvm _ _ _ hv'⟩
  | posError o vm v bm e h hv' hp =>
    exact ⟨⟨h1, hvel _ _ _ hv', h3, h4⟩, (hpos _ _ _ _ (hvel _ _ _ hv') hp).1, hvm _ _ _ hv'⟩
  | ok o vm v bm p h hv' hp =>
    obtain ⟨g1, g2⟩ := hpos _ _ _ _ (hvel _ _ _ hv') hp
    exact ⟨⟨g2 p rfl, hvel _ _ _ hv', h3, h4⟩, g1, hvm _ _ _ hv'⟩

theorem collapse_iterate {cfg : Config n d K} {j : Fin d} {a : K} (hcfg : Admissible cfg j a)
    {E : List (Mat n d K × Costs n K)} {P : List (Mat n d K)} (r : Draw n d K)
    (ev : Mat n d K → Except Err (Costs n K)) (iters i : Nat) (q : List Bool) (s : Opt n d K)
    (hs : CollapseInv j a E P s ∧ MemAt j a s.bhMem ∧ MemAt j a s.vhMem) :
    let s' := (iterate cfg ev r iters i q s).1
    CollapseInv j a E P s' ∧ MemAt j a s'.bhMem ∧ MemAt j a s'.vhMem := by
  obtain ⟨⟨hc, ⟨E', hE, hE'⟩, P', hP, hP'⟩, hb, hv⟩ := hs
  have heval : ∀ c, CollapseInv j a E P (recordEval c s) := by
    intro c
    refine ⟨⟨hc.position, hc.velocity, fun i => ?_, hc.best⟩, ⟨E' ++ [(s.swarm.position, c)], ?_, ?_⟩,
      P', hP, hP'⟩
    · rcases recordEval_pbestPos_or c s i with h | h
      · rw [h]; exact hc.pbest i
      · rw [h]; exact hc.position i
    · simp [recordEval, hE]
    · intro e he
      simp only [List.mem_append, List.mem_singleton] at he
      rcases he with he | rfl
      · exact hE' e he
      · exact hc.position
  have hbest : ∀ c t g, callGbest cfg r.oracle (recordEval c s).top (recordEval c s).swarm = (t, .ok g) →
      CollapseInv j a E P (recordBest t g (recordEval c s)) := by
    intro c t g hg
    obtain ⟨⟨h1, h2, h3, h4⟩, h5, h6⟩ := heval c
    refine ⟨⟨h1, h2, h3, ?_⟩, h5, P' ++ [s.swarm.position], ?_, ?_⟩
    · have := callGbest_from hg
      cases this with
      | prev => exact h4
      | single i => exact h3 i
      | rows bn i => exact fun i => h3 (bn i)
    · simp [recordBest, Opt.populateHistory, recordEval, hP]
    · intro x hx
      simp only [List.mem_append, List.mem_singleton] at hx
      rcases hx with hx | rfl
      · exact hP' x hx
      · exact hc.position
  have hmove : ∀ s, CollapseInv j a E P s → MemAt j a s.bhMem → MemAt j a s.vhMem →
      let s' := (moveSwarm cfg r iters i s).1
      CollapseInv j a E P s' ∧ MemAt j a s'.bhMem ∧ MemAt j a s'.vhMem := by
    intro s h hb hv
    obtain ⟨g1, g2, g3⟩ := collapse_move hcfg r iters i h.swarm hb hv
    obtain ⟨_, _, _, _, _, _, _, _, _, f10, _, f12, _⟩ := moveSwarm_frame cfg r iters i s
    exact ⟨⟨g1, by rw [f12]; exact h.evals, by rw [f10]; exact h.history⟩, g2, g3⟩
  have hcs := iterate_cases cfg ev r iters i q s
  dsimp only
  generalize (iterate cfg ev r iters i q s).1 = s' at hcs ⊢
  generalize (iterate cfg ev r iters i q s).2 = o at hcs
  cases hcs with
  | evalError e h => exact ⟨⟨hc, ⟨E', hE, hE'⟩, P', hP, hP'⟩, hb, hv⟩
  | gbestError c t e h hg => 
    obtain ⟨h1, h2, h3⟩ := heval c
    exact ⟨⟨h1, h2, h3⟩, hb, hv⟩
  | stop c t g h hg hi hq => exact ⟨hbest c t g hg, hb, hv⟩
  | moveError c t g _ e h hg hns hm =>
    have := hmove _ (hbest c t g hg) hb hv; rw [hm] at this; exact this
  | moved c t g _ h hg hns hm =>
    have := hmove _ (hbest c t g hg) hb hv; rw [hm] at this; exact this

/-- One `optimize` call. -/
theorem collapse_optimize {cfg : Config n d K} {j : Fin d} {a : K} (hcfg : Admissible cfg j a)
    {E : List (Mat n d K × Costs n K)} {P : List (Mat n d K)}
    (ev : Nat → Mat n d K → Except Err (Costs n K)) (iters : Nat) (nproc : Option Nat)
    (env : Nat → Draw n d K) (s : Opt n d K) (hs : CollapseInv j a E P s) :
    CollapseInv j a E P (optimize cfg ev iters nproc env s).1 := by
  refine optimize_inv2 cfg ev iters nproc env (CollapseInv j a E P)
    (fun s => CollapseInv j a E P s ∧ MemAt j a s.bhMem ∧ MemAt j a s.vhMem) ?_ ?_ ?_ ?_ s hs
  · rintro s ⟨⟨h1, h2, h3, h4⟩, h5, h6⟩
    have hm : MemAt j a (some s.swarm.position) := by rintro x hx i; cases hx; exact h1 i
    refine ⟨⟨⟨h1, h2, h3, h4⟩, h5, h6⟩, ?_, hm⟩
    simp only [startState, prepare]
    cases hk : cfg.kind
    case binary => exact absurd hk hcfg.kind
    all_goals exact hm
  · intro i q s h; exact collapse_iterate hcfg (env i) (ev i) iters i q s h
  · rintro s x ⟨⟨⟨h1, h2, h3, h4⟩, h5, h6⟩, _, _⟩; exact ⟨⟨h1, h2, h3, h4⟩, h5, h6⟩
  · rintro s x y ⟨⟨h1, h2, h3, h4⟩, h5, h6⟩; exact ⟨⟨h1, h2, h3, h4⟩, h5, h6⟩

/-- C72: once dimension `j` has collapsed onto an admissible value `a`, every later sequence of
`optimize` calls leaves it collapsed and evaluates (and records) only positions with value `a`
there. -/
theorem C72_dimension (cfg : Config n d K) (j : Fin d) (a : K) (hcfg : Admissible cfg j a)
    (s : Opt n d K) (hs : Collapsed j a s.swarm) (ops : List (Op n d K))
    (hops : ∀ op ∈ ops, op.isOptimize) :
    let s' := runOps cfg s ops
    Collapsed j a s'.swarm ∧
      (∃ E, s'.evals = s.evals ++ E ∧ ∀ e ∈ E, ∀ i, e.1 i j = a) ∧
      ∃ P, s'.posHistory = s.posHistory ++ P ∧ ∀ x ∈ P, ∀ i, x i j = a := by
  have := runOps_inv cfg (CollapseInv j a s.evals s.posHistory) (fun op => op.isOptimize)
    (fun s op hop hs => by
    cases op with
    | optimize ev iters nproc env => exact collapse_optimize hcfg ev iters nproc env s hs
    | reset r => exact hop.elim) ops hops s ⟨hs, ⟨[], by simp, by simp⟩, [], by simp, by simp⟩
  exact ⟨this.swarm, this.evals, this.history⟩

/-- C72: a swarm that has collapsed in every dimension evaluates the same single point for ever. -/
theorem C72_swarm (h0 : 0 < d) (cfg : Config n d K) (p : Vec d K) (hcfg : ∀ j, Admissible cfg j (p j))
    (s : Opt n d K) (hs : ∀ j, Collapsed j (p j) s.swarm) (ops : List (Op n d K))
    (hops : ∀ op ∈ ops, op.isOptimize) :
    let s' := runOps cfg s ops
    (∀ j, Collapsed j (p j) s'.swarm) ∧
      ∃ E, s'.evals = s.evals ++ E ∧ ∀ e ∈ E, e.1 = fun _ => p := by
  refine ⟨fun j => (C72_dimension cfg j (p j) (hcfg j) s (hs j) ops hops).1, ?_⟩
  obtain ⟨E, hE, _⟩ := (C72_dimension cfg ⟨0, h0⟩ _ (hcfg _) s (hs _) ops hops).2.1
  refine ⟨E, hE, fun e he => ?_⟩
  funext i j
  obtain ⟨E', hE', h'⟩ := (C72_dimension cfg j _ (hcfg j) s (hs j) ops hops).2.1
  rw [hE] at hE'
  have := List.append_cancel_left hE'
  subst this
  exact h' e he i

/-- C72: an optimizer built with `init_pos` of equal rows `p` and `velocity_clamp=(0, 0)` evaluates
nothing but `p`, whatever calls of `optimize` and `reset` are made. -/
theorem C72_start (cfg : Config n d K) (p : Vec d K) (hcfg : ∀ j, Admissible cfg j (p j))
    (hi : cfg.initPos = some fun _ => p) (hc : cfg.clamp = some (fun _ => 0, fun _ => 0))
    (s : Opt n d K) (hs : Reachable cfg s) : ∀ e ∈ s.evals, e.1 = fun _ => p := by
  have key : ∀ j, CollapseInv j (p j) [] [] s := by
    intro j
    refine reachable_inv cfg (CollapseInv j (p j) [] []) ?_ ?_ s hs
    · intro r sw t a b q hsw
      unfold resetSwarm createSwarm at hsw
      dsimp only at hsw
      split at hsw
      · cases hsw
      · next x hx =>
        cases hsw
        have hxp : x = fun _ => p := by
          have hb : cfg.isBinary = false := by
            unfold Config.isBinary
            cases hk : cfg.kind
            case binary => exact absurd hk (hcfg j).kind
            all_goals rfl
          rw [hb, hi] at hx
          unfold generateSwarm at hx
          simp only [Bool.false_eq_true, if_false] at hx
          cases hbd : cfg.bounds <;> rw [hbd] at hx <;> dsimp only at hx
          · cases hx; rfl
          · split at hx
            · cases hx; rfl
            · cases hx
        subst hxp
        refine ⟨⟨fun _ => rfl, fun i => ?_, fun _ => rfl, trivial⟩, ⟨[], rfl, by simp⟩,
          [], rfl, by simp⟩
        simp [mkSwarm, generateVelocity, hc]
    · intro ev iters nproc env s hs; exact collapse_optimize (hcfg j) ev iters nproc env s hs
  intro e he
  funext i j
  obtain ⟨E, hE, h⟩ := (key j).evals
  rw [List.nil_append] at hE
  exact h e (hE ▸ he) i

namespace Ex

/-- Two dimensions: the second one has collapsed onto 3, the first has not. -/
def flatCfg (strategy : String) : Config 2 2 ℚ :=
  { gcfg 2 2 with
    initPos := some fun i j => if j = 0 then ((i : Nat) : ℚ) else 3
    clamp := some (fun j => if j = 0 then -1 else 0, fun j => if j = 0 then 1 else 0)
    bounds := some (fun _ => 0, fun _ => 4)
    bhStrategy := strategy }

/-- `init_pos = [[5], [5]]`, `velocity_clamp = (0, 0)`. -/
def stuckCfg : Config 2 1 ℚ :=
  { gcfg 2 1 with initPos := some fun _ _ => 5, clamp := some (fun _ => 0, fun _ => 0) }

end Ex

/-- The hypotheses of C72 hold of a concrete configuration … -/
example : Admissible (Ex.flatCfg "periodic") 1 3 :=
  ⟨by simp [Ex.flatCfg, Ex.gcfg], by rintro b h; cases h; simp, by rintro b h; cases h; norm_num,
    Or.inr (by decide)⟩

/-- … its swarm starts collapsed in the second dimension, keeps moving in the first and stays
collapsed in the second. -/
example : (match construct (Ex.flatCfg "periodic") (Ex.init 2 2) (Ex.init 2 2) with
    | .ok s => decide (∀ i, s.swarm.position i 1 = 3 ∧ s.swarm.velocity i 1 = 0 ∧
        s.swarm.pbestPos i 1 = 3) &&
      decide (((runOps (Ex.flatCfg "periodic") s
        [.optimize (Ex.sphere 2 2) 3 none fun _ => Ex.draw 2 2]).evals.map fun e =>
          (e.1 1 0, e.1 1 1)) = [(1, 3), (5 / 6, 3), (11 / 18, 3)])
    | _ => false) = true := by decide +kernel

/-- Non-vacuity of `C72_start` (and of `C72_swarm`): such an optimizer can be built and run. -/
example : (∀ j, Admissible Ex.stuckCfg j ((fun _ => 5 : Vec 1 ℚ) j)) ∧
    (match construct Ex.stuckCfg (Ex.init 2 1) (Ex.init 2 1) with
    | .ok s => decide ((runOps Ex.stuckCfg s
        [.optimize (Ex.sphere 2 1) 3 none fun _ => Ex.draw 2 1]).evals.length = 3)
    | _ => false) = true :=
  ⟨fun _ => ⟨by simp [Ex.stuckCfg, Ex.gcfg], (by rintro b h; cases h; simp),
    (by rintro b h; exact nomatch h), Or.inl rfl⟩, by decide +kernel⟩

/-- C72 needs the strategy not to be `random`: a particle that leaves the bounds in the first
dimension is redrawn in both. -/
theorem C72_random_reopens : (match construct (Ex.flatCfg "random") (Ex.init 2 2) (Ex.init 2 2) with
    | .ok s => decide (∀ i, s.swarm.position i 1 = 3 ∧ s.swarm.velocity i 1 = 0 ∧
        s.swarm.pbestPos i 1 = 3) &&
      decide (¬ ∀ e ∈ (runOps (Ex.flatCfg "random") s
        [.optimize (Ex.sphere 2 2) 9 none fun _ => Ex.draw 2 2]).evals, ∀ i, e.1 i 1 = 3)
    | _ => false) = true := by decide +kernel

end PySwarms
