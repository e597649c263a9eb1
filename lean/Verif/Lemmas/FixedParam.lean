import Verif.Props.Bounds
import Verif.Lemmas.Gbest

/-!
# Lemmas for C107: bounds that may be equal
-/

set_option linter.unusedSectionVars false

namespace PySwarms

variable {n d : Nat} {K : Type} [Field K] [LinearOrder K] [IsStrictOrderedRing K] [Transc K]
  [FloorRing K]

/-- Lower bounds are at most the upper bounds; where they are equal the parameter is fixed. -/
def WeakBounds (b : Bounds d K) : Prop := ∀ j, b.1 j ≤ b.2 j

theorem bhCall_inBox_weak {strategy : String} {m : Mat n d K} {mem' : Option (Mat n d K)}
    {b : Bounds d K} (hb : WeakBounds b) (hm : InBox b m) {r : BHDraw d K} (hr : r.Legal)
    {x y : Mat n d K} (h : bhCall strategy (some m) b r x = (mem', .ok y)) : InBox b y := by
  by_cases hp : strategy = "periodic"
  · subst hp
    exact fun i j => (C18_wraps _ _ b r x y h i j (hb j)).1
  unfold bhCall at h
  split_ifs at h with h1 h2 h3 h4 h5
  · cases h; exact bhNearest_inBox b hb x
  · exact (bhReflective_ok (Prod.mk.inj h).2).1
  · rcases Nat.eq_zero_or_pos d with rfl | hd
    · exact fun _ j => j.elim0
    · obtain ⟨z, h1, h2⟩ := bhShrink_inBox hd hm x
      rw [h1] at h
      cases h
      exact h2
  · cases h
    exact bhRandom_inBox b hb _ _ (fun j => ⟨(hr.1 j).1, (hr.1 j).2.le⟩)
      (fun j => ⟨(hr.2 j).1, (hr.2 j).2.le⟩) x
  · exact bhIntermediate_inBox hb hm h
  · cases h

/-- The best position or positions are inside. -/
def BestIn (b : Bounds d K) (g : BestPos n d K) : Prop :=
  match g with
  | .empty => True
  | .single v => ∀ j, b.1 j ≤ v j ∧ v j ≤ b.2 j
  | .perParticle m => InBox b m

/-- Everything is inside the bounds, as far as `optimize` can see it between two calls. -/
structure Pinned (b : Bounds d K) (s : Opt n d K) : Prop where
  all : AllInside b s
  best : BestIn b s.swarm.bestPos

/-- The same inside a call, with the memory of the boundary handler. -/
structure PinnedIn (b : Bounds d K) (s : Opt n d K) : Prop extends Pinned b s where
  mem : ∃ m, s.bhMem = some m ∧ InBox b m

theorem PinnedIn.recordEval {b : Bounds d K} {s : Opt n d K} (h : PinnedIn b s) (c : Costs n K) :
    PinnedIn b (recordEval c s) := by
  obtain ⟨⟨⟨h1, h2, h3, h4⟩, h5⟩, h6⟩ := h
  refine ⟨⟨⟨h1, fun i j => ?_, ?_, h4⟩, h5⟩, h6⟩
  · rcases recordEval_pbestPos_or c s i with h | h
    · rw [h]; exact h2 i j
    · rw [h]; exact h1 i j
  · intro e he
    simp only [PySwarms.recordEval, List.mem_append, List.mem_singleton] at he
    rcases he with he | rfl
    · exact h3 e he
    · exact h1

theorem PinnedIn.recordBest {b : Bounds d K} {s : Opt n d K} (h : PinnedIn b s) (t : TopState n)
    {g : GBest n d K} (hg : GbestFrom s.swarm g) : PinnedIn b (recordBest t g s) := by
  obtain ⟨⟨⟨h1, h2, h3, h4⟩, h5⟩, h6⟩ := h
  refine ⟨⟨⟨h1, h2, h3, ?_⟩, ?_⟩, h6⟩
  · intro x hx
    simp only [PySwarms.recordBest, Opt.populateHistory, List.mem_append, List.mem_singleton] at hx
    rcases hx with hx | rfl
    · exact h4 x hx
    · exact h1
  · show BestIn b g.1
    cases hg with
    | prev => exact h5
    | single i => exact fun j => h2 i j
    | rows bn i => exact fun i j => h2 (bn i) j

theorem callPosition_bounds {cfg : Config n d K} {b : Bounds d K} (hk : cfg.kind ≠ .binary)
    (hcb : cfg.bounds = some b) (r : Draw n d K) (m : Option (Mat n d K)) (sw : Swarm n d K) :
    callPosition cfg r m sw =
      bhCall cfg.bhStrategy m b r.bh (fun i j => sw.position i j + sw.velocity i j) := by
  unfold callPosition computePosition
  rw [hcb]
  cases hkk : cfg.kind <;> first | rfl | exact absurd hkk hk

theorem PinnedIn.moveSwarm {cfg : Config n d K} {b : Bounds d K} (hk : cfg.kind ≠ .binary)
    (hcb : cfg.bounds = some b) (hb : WeakBounds b) {r : Draw n d K} (hr : r.Legal) (iters i : Nat)
    {s : Opt n d K} (h : PinnedIn b s) : PinnedIn b (moveSwarm cfg r iters i s).1 := by
  obtain ⟨⟨⟨h1, h2, h3, h4⟩, hbest⟩, m, h5, h6⟩ := h
  have hc := moveSwarm_cases cfg r iters i s
  generalize (PySwarms.moveSwarm cfg r iters i s).1 = s' at hc ⊢
  generalize (PySwarms.moveSwarm cfg r iters i s).2 = o at hc
  cases hc with
  | optError e h => exact ⟨⟨⟨h1, h2, h3, h4⟩, hbest⟩, m, h5, h6⟩
  | velError o vm e h hv => exact ⟨⟨⟨h1, h2, h3, h4⟩, hbest⟩, m, h5, h6⟩
  | posError o vm v bm e h hv hp =>
    refine ⟨⟨⟨h1, h2, h3, h4⟩, hbest⟩, m, ?_, h6⟩
    rw [callPosition_bounds hk hcb, h5] at hp
    rcases bhCall_mem cfg.bhStrategy (some m) b r.bh (fun i j => s.swarm.position i j + v i j)
      with h' | ⟨y, h'⟩
    · rw [hp] at h'; exact h'
    · rw [hp] at h'; cases h'
  | ok o vm v bm p h hv hp =>
    rw [callPosition_bounds hk hcb, h5] at hp
    have hin := bhCall_inBox_weak hb h6 hr.2.2.1 hp
    refine ⟨⟨⟨hin, h2, h3, h4⟩, hbest⟩, ?_⟩
    rcases bhCall_mem cfg.bhStrategy (some m) b r.bh (fun i j => s.swarm.position i j + v i j)
      with h' | ⟨y, h'⟩
    · rw [hp] at h'; exact ⟨m, h', h6⟩
    · rw [hp] at h'; cases h'; exact ⟨p, rfl, hin⟩

theorem PinnedIn.iterate {cfg : Config n d K} {b : Bounds d K} (hk : cfg.kind ≠ .binary)
    (hcb : cfg.bounds = some b) (hb : WeakBounds b) (ev : Mat n d K → Except Err (Costs n K))
    {r : Draw n d K} (hr : r.Legal) (iters i : Nat) (q : List Bool) {s : Opt n d K}
    (hs : PinnedIn b s) : PinnedIn b (iterate cfg ev r iters i q s).1 := by
  have hc := iterate_cases cfg ev r iters i q s
  generalize (PySwarms.iterate cfg ev r iters i q s).1 = s' at hc ⊢
  generalize (PySwarms.iterate cfg ev r iters i q s).2 = o at hc
  cases hc with
  | evalError e h => exact hs
  | gbestError c t e h hg =>
    have := hs.recordEval c
    exact ⟨⟨⟨this.1.1.1, this.1.1.2, this.1.1.3, this.1.1.4⟩, this.1.2⟩, this.2⟩
  | stop c t g h hg hi hq => exact (hs.recordEval c).recordBest t (callGbest_from hg)
  | moveError c t g _ e h hg hns hm =>
    have := ((hs.recordEval c).recordBest t (callGbest_from hg)).moveSwarm hk hcb hb hr iters i
    rw [hm] at this; exact this
  | moved c t g _ h hg hns hm =>
    have := ((hs.recordEval c).recordBest t (callGbest_from hg)).moveSwarm hk hcb hb hr iters i
    rw [hm] at this; exact this

theorem Pinned.start {cfg : Config n d K} {b : Bounds d K} (hk : cfg.kind ≠ .binary)
    (nproc : Option Nat) {s : Opt n d K} (hs : Pinned b s) :
    PinnedIn b (startState cfg nproc s) := by
  refine ⟨⟨⟨hs.1.position, hs.1.pbest, hs.1.evals, hs.1.history⟩, hs.2⟩, s.swarm.position, ?_,
    hs.1.position⟩
  unfold startState prepare
  dsimp only
  cases hkk : cfg.kind <;> first | rfl | exact absurd hkk hk

theorem Pinned.optimize {cfg : Config n d K} {b : Bounds d K} (hk : cfg.kind ≠ .binary)
    (hcb : cfg.bounds = some b) (hb : WeakBounds b)
    (ev : Nat → Mat n d K → Except Err (Costs n K)) (iters : Nat) (nproc : Option Nat)
    (env : Nat → Draw n d K) (henv : ∀ i, (env i).Legal) {s : Opt n d K} (hs : Pinned b s) :
    Pinned b (optimize cfg ev iters nproc env s).1 := by
  refine optimize_inv2 cfg ev iters nproc env (Pinned b) (PinnedIn b)
    (fun s hs => hs.start hk nproc)
    (fun i q s hs => hs.iterate hk hcb hb (ev i) (henv i) iters i q) ?_ ?_ s hs
  · rintro s c ⟨⟨⟨h1, h2, h3, h4⟩, h5⟩, -⟩; exact ⟨⟨h1, h2, h3, h4⟩, h5⟩
  · rintro s a c ⟨⟨h1, h2, h3, h4⟩, h5⟩; exact ⟨⟨h1, h2, h3, h4⟩, h5⟩

theorem pinned_fresh {cfg : Config n d K} {b : Bounds d K} (hk : cfg.kind ≠ .binary)
    (hcb : cfg.bounds = some b) (hb : WeakBounds b) (r : InitDraw n d K) (hr : r.Legal)
    (hinit : cfg.initPos.isSome ∨ cfg.center = fun _ => 1) (sw : Swarm n d K)
    (h : resetSwarm cfg r = .ok sw) :
    InBox b sw.position ∧ InBox b sw.pbestPos ∧ BestIn b sw.bestPos := by
  have hbin : cfg.isBinary = false := by
    unfold Config.isBinary; cases hkk : cfg.kind <;> first | rfl | exact absurd hkk hk
  have hpb := (fresh_reachable_init cfg r sw h).2.2.2.1
  rw [hpb, ← and_assoc, and_self]
  unfold resetSwarm createSwarm at h
  simp only [hbin, Bool.false_eq_true, if_false, hcb] at h
  split at h
  · cases h
  · next p hp =>
    cases h
    refine ⟨?_, trivial⟩
    cases hip : cfg.initPos with
    | some p0 =>
      rw [hip] at hp
      by_cases hin : InBox b p0
      · rw [(C37_init_pos (some b) cfg.center p0 r.pos).1 (by rintro b' ⟨⟩; exact hin)] at hp
        cases hp; exact hin
      · rw [(C37_init_pos (some b) cfg.center p0 r.pos).2 ⟨b, rfl, hin⟩] at hp; cases hp
    | none =>
      rw [hip] at hp hinit
      rcases hinit with h | h
      · cases h
      · rw [h] at hp
        cases hp
        intro i j
        have hw : 0 ≤ b.2 j - b.1 j := sub_nonneg.2 (hb j)
        have hu := hr.1 i j
        have h1 := mul_nonneg hw hu.1
        have h2 := mul_le_mul_of_nonneg_left hu.2.le hw
        show b.1 j ≤ 1 * (b.1 j + (b.2 j - b.1 j) * r.pos i j) ∧
          1 * (b.1 j + (b.2 j - b.1 j) * r.pos i j) ≤ b.2 j
        constructor <;> linarith

theorem pinned_step {cfg : Config n d K} {b : Bounds d K} (hk : cfg.kind ≠ .binary)
    (hcb : cfg.bounds = some b) (hb : WeakBounds b)
    (hinit : cfg.initPos.isSome ∨ cfg.center = fun _ => 1) (r2 : InitDraw n d K) (sw : Swarm n d K)
    (hsw : resetSwarm cfg r2 = .ok sw) (s : Opt n d K) (op : Op n d K) (hop : op.Legal)
    (hs : Pinned b s) : Pinned b (stepOp cfg s op) := by
  cases op with
  | optimize ev iters nproc env => exact hs.optimize hk hcb hb ev iters nproc env hop
  | reset r =>
    obtain ⟨sw', hsw'⟩ := resetSwarm_ok_indep cfg r2 r sw hsw
    have := pinned_fresh hk hcb hb r hop hinit sw' hsw'
    simp only [stepOp, reset, hsw']
    exact ⟨⟨this.1, this.2.1, by simp, by simp⟩, this.2.2⟩

theorem pinned_reachable {cfg : Config n d K} {b : Bounds d K} (hk : cfg.kind ≠ .binary)
    (hcb : cfg.bounds = some b) (hb : WeakBounds b)
    (hinit : cfg.initPos.isSome ∨ cfg.center = fun _ => 1) {s : Opt n d K}
    (hs : ReachableLegal cfg s) : Pinned b s := by
  obtain ⟨r1, r2, s0, ops, hr1, hr2, hops, hc, rfl⟩ := hs
  obtain ⟨sw, hsw, rfl⟩ := construct_ok cfg r1 r2 s0 hc
  have h0 := pinned_fresh hk hcb hb r2 hr2 hinit sw hsw
  exact runOps_inv cfg (Pinned b) Op.Legal
    (fun s op hop hs => pinned_step hk hcb hb hinit r2 sw hsw s op hop hs) ops hops _
    ⟨⟨h0.1, h0.2.1, by simp, by simp⟩, h0.2.2⟩

/-! ### Velocities in a fixed dimension -/

/-- Inside the bounds, the velocity handler (other than `adjust`) passes the velocity on. -/
theorem vhCall_inside {st : String} (hst : st ∈ ["unmodified", "invert", "zero"])
    {mem vm : Option (Mat n d K)} {b : Bounds d K} {x v v' : Mat n d K} (hx : InBox b x)
    (h : vhCall st mem none { position := some x, bounds := some (some b) } v = (vm, .ok v')) :
    v' = v := by
  have hl : ∀ i, rowLow b x i = false := fun i => by
    unfold rowLow
    rw [List.any_eq_false]
    intro j _
    simp only [isLow, decide_eq_true_eq, not_lt]
    exact (hx i j).1
  have hh : ∀ i, rowHigh b x i = false := fun i => by
    unfold rowHigh
    rw [List.any_eq_false]
    intro j _
    simp only [isHigh, decide_eq_true_eq, gt_iff_lt, not_lt]
    exact (hx i j).2
  simp only [List.mem_cons, List.not_mem_nil, or_false] at hst
  unfold vhCall at h
  rcases hst with rfl | rfl | rfl
  · rw [if_pos rfl] at h
    cases h; rfl
  · rw [if_neg (by decide), if_neg (by decide), if_pos rfl] at h
    have h := (Prod.mk.inj h).2
    unfold vhInvert at h
    cases h
    funext i j
    simp [clampOpt, hl, hh]
  · rw [if_neg (by decide), if_neg (by decide), if_neg (by decide), if_pos rfl] at h
    have h := (Prod.mk.inj h).2
    unfold vhZero at h
    cases h
    funext i j
    simp [hl, hh]

theorem Bounds.fixed_eq {b : Bounds d K} {j : Fin d} (hj : b.1 j = b.2 j) {x : K}
    (h : b.1 j ≤ x ∧ x ≤ b.2 j) : x = b.1 j := le_antisymm (hj ▸ h.2) h.1

/-- In a fixed dimension nothing pulls: the velocity is just damped. -/
theorem fixed_velocity {cfg : Config n d K} {b : Bounds d K} (hk : cfg.kind ≠ .binary)
    (hcb : cfg.bounds = some b) (hvh : cfg.vhStrategy ∈ ["unmodified", "invert", "zero"])
    (hcl : cfg.clamp = none) {s : Opt n d K} (hs : PinnedIn b s) {o : Opts K}
    {vm : Option (Mat n d K)} {v : Mat n d K} {r1 r2 : Mat n d K} {j : Fin d} (hj : b.1 j = b.2 j)
    (hv : computeVelocity { s.swarm with options := o } cfg.clamp cfg.vhStrategy s.vhMem
        (velBounds cfg) r1 r2 = (vm, .ok v)) :
    ∃ w, o.lookup "w" = some w ∧ ∀ i, v i j = w * s.swarm.velocity i j := by
  have hvb : velBounds cfg = some b := by
    unfold velBounds; rw [hcb]; cases hkk : cfg.kind <;> first | rfl | exact absurd hkk hk
  obtain ⟨c1, c2, w, -, -, h3, h4⟩ := computeVelocity_ok hv
  rw [hvb, hcl] at h4
  refine ⟨w, h3, fun i => ?_⟩
  rw [vhCall_inside hvh hs.all.position h4]
  have e1 : s.swarm.pbestPos i j = s.swarm.position i j := by
    rw [Bounds.fixed_eq hj (hs.all.pbest i j), Bounds.fixed_eq hj (hs.all.position i j)]
  have e2 : s.swarm.bestPos.row s.swarm.position i j = s.swarm.position i j := by
    have h := hs.best
    cases hg : s.swarm.bestPos with
    | empty => rfl
    | single g =>
      rw [hg] at h
      show g j = _
      rw [Bounds.fixed_eq hj (h j), Bounds.fixed_eq hj (hs.all.position i j)]
    | perParticle m =>
      rw [hg] at h
      show m i j = _
      rw [Bounds.fixed_eq hj (h i j), Bounds.fixed_eq hj (hs.all.position i j)]
  show w * s.swarm.velocity i j + c1 * r1 i j * (s.swarm.pbestPos i j - s.swarm.position i j) +
    c2 * r2 i j * (s.swarm.bestPos.row s.swarm.position i j - s.swarm.position i j) = _
  rw [e1, e2]
  ring

end PySwarms
