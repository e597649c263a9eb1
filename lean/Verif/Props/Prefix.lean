import Verif.Lemmas.Star
import Verif.Lemmas.Rest
import Verif.Props.Stopping
import Verif.Examples

/-!
# Lengthening, truncating and continuing a run (C79, C80, C81)
-/

set_option linter.unusedSectionVars false

namespace PySwarms

variable {n d : Nat} {K : Type} [Field K] [LinearOrder K] [Transc K] [FloorRing K]

/-! ### Specification -/

/-- The hyper-parameters do not depend on the requested number of iterations: BinaryPSO, or no
options strategy. -/
def Config.ConstOptions (cfg : Config n d K) : Prop := cfg.kind = .binary ∨ cfg.ohStrategy = []

/-- Everything the object `a` has recorded is the beginning of what the object `b` has recorded:
the five histories and the evaluations. -/
structure RecordsPrefix (a b : Opt n d K) : Prop where
  cost : a.costHistory <+: b.costHistory
  meanPbest : a.meanPbestHistory <+: b.meanPbestHistory
  meanNeighbor : a.meanNeighborHistory <+: b.meanNeighborHistory
  pos : a.posHistory <+: b.posHistory
  velocity : a.velocityHistory <+: b.velocityHistory
  evals : a.evals <+: b.evals

/-- The two objects have recorded the same histories and evaluations and remember the same personal
and best positions and costs. -/
structure SameRecords (a b : Opt n d K) : Prop where
  cost : a.costHistory = b.costHistory
  meanPbest : a.meanPbestHistory = b.meanPbestHistory
  meanNeighbor : a.meanNeighborHistory = b.meanNeighborHistory
  pos : a.posHistory = b.posHistory
  velocity : a.velocityHistory = b.velocityHistory
  evals : a.evals = b.evals
  pbestPos : a.swarm.pbestPos = b.swarm.pbestPos
  pbestCost : a.swarm.pbestCost = b.swarm.pbestCost
  bestPos : a.swarm.bestPos = b.swarm.bestPos
  bestCost : a.swarm.bestCost = b.swarm.bestCost
  currentCost : a.swarm.currentCost = b.swarm.currentCost

/-- A new optimizer object at the same positions and velocities, with the same neighbour lists and
without any memory.  (The memory of the boundary handler is overwritten at the start of every call;
BinaryPSO has none, and there the field is carried along unused.) -/
def Opt.forget (s : Opt n d K) : Opt n d K where
  swarm := mkSwarm s.swarm.position s.swarm.velocity s.swarm.options
  top := s.top
  bhMem := s.bhMem

/-! ### Helper lemmas -/

theorem RecordsPrefix.refl (a : Opt n d K) : RecordsPrefix a a :=
  ⟨List.prefix_rfl, List.prefix_rfl, List.prefix_rfl, List.prefix_rfl, List.prefix_rfl,
    List.prefix_rfl⟩

theorem RecordsPrefix.trans {a b c : Opt n d K} (h1 : RecordsPrefix a b) (h2 : RecordsPrefix b c) :
    RecordsPrefix a c :=
  ⟨h1.1.trans h2.1, h1.2.trans h2.2, h1.3.trans h2.3, h1.4.trans h2.4, h1.5.trans h2.5,
    h1.6.trans h2.6⟩

theorem callOptions_const (cfg : Config n d K) (h : cfg.ConstOptions) (k k' i : Nat)
    (r : Draw n d K) (s : Swarm n d K) :
    callOptions cfg k i r s = callOptions cfg k' i r s := by
  unfold callOptions
  rcases h with h | h
  · rw [h]
  · rw [h]; rfl

theorem iterate_const (cfg : Config n d K) (h : cfg.ConstOptions)
    (ev : Mat n d K → Except Err (Costs n K)) (r : Draw n d K) (k k' i : Nat) (q : List Bool)
    (s : Opt n d K) : iterate cfg ev r k i q s = iterate cfg ev r k' i q s := by
  unfold iterate moveSwarm
  simp only [callOptions_const cfg h k k']

theorem loop_const (cfg : Config n d K) (h : cfg.ConstOptions)
    (ev : Nat → Mat n d K → Except Err (Costs n K)) (env : Nat → Draw n d K) (k k' : Nat)
    (m i : Nat) (q : List Bool) (s : Opt n d K) :
    loop cfg ev env k m i q s = loop cfg ev env k' m i q s := by
  induction m generalizing i q s with
  | zero => rfl
  | succ m ih =>
    rw [loop, loop, iterate_const cfg h (ev i) (env i) k k']
    generalize iterate cfg (ev i) (env i) k' i q s = o
    obtain ⟨s', e | f⟩ := o
    · rfl
    · cases f with
      | stop => rfl
      | «continue» q' => exact ih _ _ _

theorem iterate_grows (cfg : Config n d K) (ev : Mat n d K → Except Err (Costs n K))
    (r : Draw n d K) (iters i : Nat) (q : List Bool) (s : Opt n d K) :
    RecordsPrefix s (iterate cfg ev r iters i q s).1 := by
  refine iterate_inv cfg ev r iters i q (fun t => RecordsPrefix s t) ?_ ?_ ?_ ?_ s (.refl s)
  · intro t c h _
    exact ⟨h.1, h.2, h.3, h.4, h.5, h.6.trans (List.prefix_append _ _)⟩
  · intro t u h
    exact ⟨h.1, h.2, h.3, h.4, h.5, h.6⟩
  · intro t u g h
    exact ⟨h.1.trans (List.prefix_append _ _), h.2.trans (List.prefix_append _ _),
      h.3.trans (List.prefix_append _ _), h.4.trans (List.prefix_append _ _),
      h.5.trans (List.prefix_append _ _), h.6⟩
  · intro t h
    obtain ⟨-, -, -, -, -, -, h1, h2, h3, h4, h5, h6, -⟩ := moveSwarm_frame cfg r iters i t
    exact ⟨h1 ▸ h.1, h2 ▸ h.2, h3 ▸ h.3, h4 ▸ h.4, h5 ▸ h.5, h6 ▸ h.6⟩

theorem loop_grows (cfg : Config n d K) (ev : Nat → Mat n d K → Except Err (Costs n K))
    (env : Nat → Draw n d K) (iters m i : Nat) (q : List Bool) (s : Opt n d K) :
    RecordsPrefix s (loop cfg ev env iters m i q s).1 :=
  loop_inv cfg ev env iters (fun t => RecordsPrefix s t)
    (fun i q t h => h.trans (iterate_grows cfg (ev i) (env i) iters i q t)) m i q s (.refl s)

theorem loop_prefix (cfg : Config n d K) (ev : Nat → Mat n d K → Except Err (Costs n K))
    (env : Nat → Draw n d K) (iters k m i : Nat) (hk : k ≤ m) (q : List Bool) (s : Opt n d K) :
    RecordsPrefix (loop cfg ev env iters k i q s).1 (loop cfg ev env iters m i q s).1 := by
  induction k generalizing m i q s with
  | zero => exact loop_grows cfg ev env iters m i q s
  | succ k ih =>
    obtain ⟨m, rfl⟩ : ∃ m', m = m' + 1 := ⟨m - 1, by omega⟩
    rw [loop, loop]
    generalize iterate cfg (ev i) (env i) iters i q s = o
    obtain ⟨s', e | f⟩ := o
    · exact .refl _
    · cases f with
      | stop => exact .refl _
      | «continue» q' => exact ih _ _ (by omega) _ _

/-- The records of the object after a call are those at the end of the loop. -/
theorem optimize_records (cfg : Config n d K) (ev : Nat → Mat n d K → Except Err (Costs n K))
    (iters : Nat) (nproc : Option Nat) (hp : nproc ≠ some 0) (env : Nat → Draw n d K)
    (s : Opt n d K) :
    SameRecords (optimize cfg ev iters nproc env s).1
      (loop cfg ev env iters iters 0 [] (startState cfg nproc s)).1 := by
  have hc := optimize_cases cfg ev iters nproc env s
  generalize (optimize cfg ev iters nproc env s).1 = s' at hc ⊢
  generalize (optimize cfg ev iters nproc env s).2 = o at hc
  cases hc with
  | badPool h => exact absurd h hp
  | loopError s1 e hp h => rw [h]; constructor <;> rfl
  | finishError s1 e hp h hf => rw [h]; constructor <;> rfl
  | done r hp s1 h hf => rw [h]; constructor <;> rfl

theorem RecordsPrefix.congr {a a' b b' : Opt n d K} (ha : SameRecords a a') (hb : SameRecords b b')
    (h : RecordsPrefix a' b') : RecordsPrefix a b :=
  ⟨ha.1 ▸ hb.1 ▸ h.1, ha.2 ▸ hb.2 ▸ h.2, ha.3 ▸ hb.3 ▸ h.3, ha.4 ▸ hb.4 ▸ h.4, ha.5 ▸ hb.5 ▸ h.5,
    ha.6 ▸ hb.6 ▸ h.6⟩

/-! ### C79: asking for more iterations only continues the run -/

/-- **C79** (prefix).  With constant hyper-parameters and the same random numbers, everything
recorded by a call asking for `k` iterations is the beginning of what a call asking for more
iterations records, however either of the two calls ends. -/
theorem C79_prefix (cfg : Config n d K) (hcfg : cfg.ConstOptions)
    (ev : Nat → Mat n d K → Except Err (Costs n K)) (k m : Nat) (hkm : k ≤ m)
    (nproc : Option Nat) (env : Nat → Draw n d K) (s : Opt n d K) :
    RecordsPrefix (optimize cfg ev k nproc env s).1 (optimize cfg ev m nproc env s).1 := by
  by_cases hp : nproc = some 0
  · subst hp; exact .refl _
  · refine .congr (optimize_records cfg ev k nproc hp env s)
      (optimize_records cfg ev m nproc hp env s) ?_
    rw [loop_const cfg hcfg ev env k m]
    exact loop_prefix cfg ev env m k m 0 hkm [] _

theorem loop_extend_stopped (cfg : Config n d K) (ev : Nat → Mat n d K → Except Err (Costs n K))
    (env : Nat → Draw n d K) (iters k m i : Nat) (hk : k ≤ m) (q : List Bool) (s s' : Opt n d K)
    (h : loop cfg ev env iters k i q s = (s', .ok ()))
    (hl : s'.costHistory.length < s.costHistory.length + k) :
    loop cfg ev env iters m i q s = (s', .ok ()) := by
  induction k generalizing m i q s with
  | zero => simp only [loop, Prod.mk.injEq] at h; rw [← h.1] at hl; omega
  | succ k ih =>
    obtain ⟨m, rfl⟩ : ∃ m', m = m' + 1 := ⟨m - 1, by omega⟩
    rw [loop] at h ⊢
    have hcs := iterate_cases cfg (ev i) (env i) iters i q s
    generalize iterate cfg (ev i) (env i) iters i q s = o at h hcs ⊢
    obtain ⟨s1, e | f⟩ := o
    · cases h
    · cases f with
      | stop => exact h
      | «continue» q' =>
        refine ih _ _ (by omega) _ _ h ?_
        have : s1.costHistory.length = s.costHistory.length + 1 := by
          simp only at hcs
          cases hcs with
          | moved c t g _ h hg hns hm =>
            have hf := moveSwarm_frame cfg (env i) iters i (recordBest t g (recordEval c s))
            rw [hm] at hf
            rw [hf.2.2.2.2.2.2.1]
            simp [recordBest, Opt.populateHistory, recordEval]
        omega

/-- **C79** (converged).  A call that returned after fewer iterations than it was asked for would
have done exactly the same, and returned the same, had it been asked for any larger number. -/
theorem C79_converged (cfg : Config n d K) (hcfg : cfg.ConstOptions)
    (ev : Nat → Mat n d K → Except Err (Costs n K)) (k m : Nat) (hkm : k ≤ m)
    (nproc : Option Nat) (env : Nat → Draw n d K) (s s' : Opt n d K) (v : XR K × Vec d K)
    (h : optimize cfg ev k nproc env s = (s', .ok v))
    (hl : s'.costHistory.length < s.costHistory.length + k) :
    optimize cfg ev m nproc env s = (s', .ok v) := by
  have hp : nproc ≠ some 0 := by
    rintro rfl
    simp [optimize] at h
  unfold optimize at h ⊢
  rw [if_neg hp] at h ⊢
  dsimp only at h ⊢
  rw [loop_const cfg hcfg ev env k m] at h
  generalize hs0 : ({ prepare cfg s with
    openPools := s.openPools + (if nproc.isSome then 1 else 0) } : Opt n d K) = s0 at h ⊢
  have hc0 : s0.costHistory = s.costHistory := by rw [← hs0]; rfl
  generalize hL : loop cfg ev env m k 0 [] s0 = L at h
  obtain ⟨s1, e | ⟨⟩⟩ := L
  · cases h
  · have hlen : s1.costHistory.length < s0.costHistory.length + k := by
      rw [hc0]
      dsimp only at h
      split at h
      · cases h
      · cases h; exact hl
    rw [loop_extend_stopped cfg ev env m k m 0 hkm [] s0 s1 hL hlen]
    exact h

/-- **C79** (more is never worse).  For a Star topology and the same random numbers, the cost
returned after `m ≥ k` iterations is not greater than the cost returned after `k`. -/
theorem C79_not_worse [IsStrictOrderedRing K] (hn : 0 < n) (cfg : Config n d K)
    (hcfg : cfg.ConstOptions) (hk : cfg.kind.isStar)
    (ev : Nat → Mat n d K → Except Err (Costs n K)) (k m : Nat) (hkm : k ≤ m)
    (nproc : Option Nat) (env : Nat → Draw n d K) (s : Opt n d K) (hs : Reachable cfg s)
    (c c' : XR K) (p p' : Vec d K)
    (h : (optimize cfg ev k nproc env s).2 = .ok (c, p))
    (h' : (optimize cfg ev m nproc env s).2 = .ok (c', p')) :
    XR.lt c c' = false := by
  have key : ∀ (k : Nat) (c : XR K) (p : Vec d K),
      (optimize cfg ev k nproc env s).2 = .ok (c, p) →
      IsMinOf c (allCosts (optimize cfg ev k nproc env s).1.evals) := by
    intro k c p h
    obtain ⟨r1, r2, s0, ops, h0, hs⟩ := hs
    have hr : Reachable cfg (optimize cfg ev k nproc env s).1 :=
      ⟨r1, r2, s0, ops ++ [.optimize ev k nproc env], h0, by rw [hs]; simp [runOps, stepOp]⟩
    have hi := starInv_reachable hn cfg hk _ hr
    obtain ⟨s1, _, hs', hb, -⟩ := optimize_ok cfg ev k nproc env s
      (optimize cfg ev k nproc env s).1 c p (Prod.ext rfl h)
    have hbc : (optimize cfg ev k nproc env s).1.swarm.bestCost = some c := by rw [hs']; exact hb
    have := hi.best
    rwa [Swarm.bestCostVal, hbc] at this
  refine isMinOf_antitone (key k c p h) (key m c' p' h') ?_
  intro x hx
  rw [mem_allCosts] at hx ⊢
  obtain ⟨e, he, i, hi⟩ := hx
  exact ⟨e, (C79_prefix cfg hcfg ev k m hkm nproc env s).evals.subset he, i, hi⟩

/-! ### C80: early stopping only truncates -/

theorem dequeAppend_false (w : Nat) (hw : 0 < w) (q : List Bool) :
    (dequeAppend w q false).all id = false := by
  rw [List.all_eq_false]
  refine ⟨false, ?_, by simp⟩
  unfold dequeAppend
  rw [List.drop_append_of_le_length (by simp; omega)]
  simp

theorem SameRecords.refl (a : Opt n d K) : SameRecords a a := by constructor <;> rfl

theorem SameRecords.symm {a b : Opt n d K} (h : SameRecords a b) : SameRecords b a :=
  ⟨h.1.symm, h.2.symm, h.3.symm, h.4.symm, h.5.symm, h.6.symm, h.7.symm, h.8.symm, h.9.symm,
    h.10.symm, h.11.symm⟩

theorem SameRecords.trans {a b c : Opt n d K} (h : SameRecords a b) (g : SameRecords b c) :
    SameRecords a c :=
  ⟨h.1.trans g.1, h.2.trans g.2, h.3.trans g.3, h.4.trans g.4, h.5.trans g.5, h.6.trans g.6,
    h.7.trans g.7, h.8.trans g.8, h.9.trans g.9, h.10.trans g.10, h.11.trans g.11⟩

theorem moveSwarm_records (cfg : Config n d K) (r : Draw n d K) (iters i : Nat) (s : Opt n d K) :
    SameRecords (moveSwarm cfg r iters i s).1 s := by
  obtain ⟨h1, h2, h3, h4, h5, -, h6, h7, h8, h9, h10, h11, -⟩ := moveSwarm_frame cfg r iters i s
  exact ⟨h6, h7, h8, h9, h10, h11, h1, h2, h3, h4, h5⟩

/-- An iteration without convergence test, when the evaluation and the best neighbour succeed. -/
theorem iterate_never [IsStrictOrderedRing K] (cfg : Config n d K) (hft : cfg.ftol = XR.ninf) (hw : 0 < cfg.window)
    (ev : Mat n d K → Except Err (Costs n K)) (r : Draw n d K) (iters i : Nat) (q : List Bool)
    (s : Opt n d K) (c : Costs n K) (t : TopState n) (g : GBest n d K)
    (h : ev s.swarm.position = .ok c)
    (hg : callGbest cfg r.oracle (recordEval c s).top (recordEval c s).swarm = (t, .ok g)) :
    iterate cfg ev r iters i q s =
      ((moveSwarm cfg r iters i (recordBest t g (recordEval c s))).1,
       match (moveSwarm cfg r iters i (recordBest t g (recordEval c s))).2 with
       | .error e => .error e
       | .ok () => .ok (.continue (dequeAppend cfg.window q false))) := by
  unfold iterate
  simp only [h, hg, hft, ftolDelta_ninf, dequeAppend_false _ hw, Bool.and_false,
    Bool.false_eq_true, if_false]
  generalize moveSwarm cfg r iters i (recordBest t g (recordEval c s)) = o
  obtain ⟨s', e | ⟨⟩⟩ := o <;> rfl

theorem loop_truncates [IsStrictOrderedRing K] (cfg : Config n d K) (hcfg : cfg.ConstOptions) (hw : 0 < cfg.window)
    (ev : Nat → Mat n d K → Except Err (Costs n K)) (env : Nat → Draw n d K)
    (iters iters' m i : Nat) (q q0 : List Bool)
    (s s' : Opt n d K) (h : loop cfg ev env iters m i q s = (s', .ok ())) :
    ∃ k, k ≤ m ∧ s'.costHistory.length = s.costHistory.length + k ∧
      SameRecords s' (loop { cfg with ftol := XR.ninf } ev env iters' k i q0 s).1 := by
  induction m generalizing i q q0 s with
  | zero =>
    simp only [loop, Prod.mk.injEq] at h
    refine ⟨0, le_rfl, by rw [← h.1]; rfl, ?_⟩
    rw [← h.1]; exact .refl _
  | succ m ih =>
    rw [loop, iterate_const cfg hcfg (ev i) (env i) iters iters'] at h
    have hcs := iterate_cases cfg (ev i) (env i) iters' i q s
    generalize iterate cfg (ev i) (env i) iters' i q s = o at h hcs
    obtain ⟨s1, e | f⟩ := o
    · cases h
    · simp only at hcs
      cases hcs with
      | stop c t g he hg hi hq =>
        simp only [Prod.mk.injEq, and_true] at h
        refine ⟨1, by omega, ?_, ?_⟩
        · rw [← h]; simp [recordBest, Opt.populateHistory, recordEval]
        · rw [loop, iterate_never { cfg with ftol := XR.ninf } rfl hw (ev i) (env i) iters' i q0 s
            c t g he hg, ← h]
          have hr := moveSwarm_records { cfg with ftol := XR.ninf } (env i) iters' i
            (recordBest t g (recordEval c s))
          generalize moveSwarm { cfg with ftol := XR.ninf } (env i) iters' i
            (recordBest t g (recordEval c s)) = o at hr
          obtain ⟨s3, e | ⟨⟩⟩ := o <;> exact hr.symm
      | moved c t g _ he hg hns hm =>
        obtain ⟨k, hk, hl, hr⟩ := ih (i + 1) _ (dequeAppend cfg.window q0 false) s1 h
        have hlen : s1.costHistory.length = s.costHistory.length + 1 := by
          have hf := moveSwarm_frame cfg (env i) iters' i (recordBest t g (recordEval c s))
          rw [hm] at hf
          rw [hf.2.2.2.2.2.2.1]
          simp [recordBest, Opt.populateHistory, recordEval]
        refine ⟨k + 1, by omega, by omega, ?_⟩
        rw [loop, iterate_never { cfg with ftol := XR.ninf } rfl hw (ev i) (env i) iters' i q0 s
            c t g he hg]
        have hm' : moveSwarm { cfg with ftol := XR.ninf } (env i) iters' i
          (recordBest t g (recordEval c s)) = (s1, .ok ()) := hm
        rw [hm']
        exact hr

/-- **C80**.  Let a call with any tolerance return normally.  It has recorded some number `k` of
iterations, and the call of a never-converging optimizer (`ftol = -inf`) asking for exactly `k`
iterations records exactly the same histories and evaluations, ends with the same personal and best
positions and costs, and, if it returns, returns the same pair. -/
theorem C80_truncation [IsStrictOrderedRing K] (cfg : Config n d K) (hcfg : cfg.ConstOptions) (hw : 0 < cfg.window)
    (ev : Nat → Mat n d K → Except Err (Costs n K)) (iters : Nat) (nproc : Option Nat)
    (env : Nat → Draw n d K) (s s' : Opt n d K) (v : XR K × Vec d K)
    (h : optimize cfg ev iters nproc env s = (s', .ok v)) :
    ∃ k, k ≤ iters ∧ s'.costHistory.length = s.costHistory.length + k ∧
      SameRecords s' (optimize { cfg with ftol := XR.ninf } ev k nproc env s).1 ∧
      ∀ v', (optimize { cfg with ftol := XR.ninf } ev k nproc env s).2 = .ok v' → v' = v := by
  obtain ⟨c, p⟩ := v
  have hp : nproc ≠ some 0 := by
    rintro rfl
    simp [optimize] at h
  obtain ⟨s1, hl, hs', hb, j, hj, hpj⟩ := optimize_ok cfg ev iters nproc env s s' c p h
  obtain ⟨k, hk, hlen, hr⟩ := loop_truncates cfg hcfg hw ev env iters iters iters 0 [] []
    (startState cfg nproc s) s1 hl
  have hs1 : SameRecords s' s1 := by rw [hs']; constructor <;> rfl
  rw [loop_const { cfg with ftol := XR.ninf } hcfg ev env iters k] at hr
  have hall := (hs1.trans hr).trans
    (optimize_records { cfg with ftol := XR.ninf } ev k nproc hp env s).symm
  refine ⟨k, hk, by rw [hs']; exact hlen, hall, ?_⟩
  rintro ⟨c', p'⟩ hv
  obtain ⟨s2, -, hs2, hb2, j2, hj2, hp2⟩ := optimize_ok { cfg with ftol := XR.ninf } ev k nproc env s
    (optimize { cfg with ftol := XR.ninf } ev k nproc env s).1 c' p' (Prod.ext rfl hv)
  have h2 : SameRecords (optimize { cfg with ftol := XR.ninf } ev k nproc env s).1 s2 := by
    rw [hs2]; constructor <;> rfl
  have h12 := (hs1.symm.trans hall).trans h2
  rw [← h12.bestCost, hb] at hb2
  rw [← h12.pbestCost, hj] at hj2
  cases hb2; cases hj2
  rw [hp2, hpj, h12.pbestPos]

/-- **C80** (prefix).  A call with any tolerance that returns has recorded a prefix of what the
never-converging optimizer records when asked for the same number of iterations. -/
theorem C80_prefix [IsStrictOrderedRing K] (cfg : Config n d K) (hcfg : cfg.ConstOptions) (hw : 0 < cfg.window)
    (ev : Nat → Mat n d K → Except Err (Costs n K)) (iters : Nat) (nproc : Option Nat)
    (env : Nat → Draw n d K) (s s' : Opt n d K) (v : XR K × Vec d K)
    (h : optimize cfg ev iters nproc env s = (s', .ok v)) :
    RecordsPrefix s' (optimize { cfg with ftol := XR.ninf } ev iters nproc env s).1 := by
  obtain ⟨k, hk, -, hr, -⟩ := C80_truncation cfg hcfg hw ev iters nproc env s s' v h
  exact .congr hr (.refl _) (C79_prefix { cfg with ftol := XR.ninf } hcfg ev k iters hk nproc env s)

/-! ### C81: continuing a run -/

/-- The records of `b` put in front of those of `o`. -/
def graft (b o : Opt n d K) : Opt n d K :=
  { o with
    costHistory := b.costHistory ++ o.costHistory
    meanPbestHistory := b.meanPbestHistory ++ o.meanPbestHistory
    meanNeighborHistory := b.meanNeighborHistory ++ o.meanNeighborHistory
    posHistory := b.posHistory ++ o.posHistory
    velocityHistory := b.velocityHistory ++ o.velocityHistory
    evals := b.evals ++ o.evals
    openPools := b.openPools }

theorem recordEval_graft (c : Costs n K) (b o : Opt n d K) :
    recordEval c (graft b o) = graft b (recordEval c o) := by
  simp [recordEval, graft]

theorem recordBest_graft (t : TopState n) (g : GBest n d K) (b o : Opt n d K) :
    recordBest t g (graft b o) = graft b (recordBest t g o) := by
  simp [recordBest, graft, Opt.populateHistory]

theorem moveSwarm_graft (cfg : Config n d K) (r : Draw n d K) (iters i : Nat) (b o : Opt n d K) :
    moveSwarm cfg r iters i (graft b o) =
      (graft b (moveSwarm cfg r iters i o).1, (moveSwarm cfg r iters i o).2) := by
  have hc := moveSwarm_cases cfg r iters i o
  generalize (moveSwarm cfg r iters i o).1 = s' at hc
  generalize (moveSwarm cfg r iters i o).2 = f at hc
  cases hc with
  | optError e h => unfold moveSwarm; simp [graft, h]
  | velError p vm e h hv => unfold moveSwarm; simp [graft, h, hv]
  | posError p vm v bm e h hv hp => unfold moveSwarm; simp [graft, h, hv, hp]
  | ok p vm v bm x h hv hp => unfold moveSwarm; simp [graft, h, hv, hp]

theorem iterate_graft (cfg : Config n d K) (ev : Mat n d K → Except Err (Costs n K))
    (r : Draw n d K) (iters i : Nat) (q : List Bool) (b o : Opt n d K) :
    iterate cfg ev r iters i q (graft b o) =
      (graft b (iterate cfg ev r iters i q o).1, (iterate cfg ev r iters i q o).2) := by
  unfold iterate
  have e1 : (graft b o).swarm = o.swarm := rfl
  rw [e1]
  split
  · rfl
  · next c hc =>
    dsimp only
    rw [recordEval_graft]
    have e2 : (graft b (recordEval c o)).swarm = (recordEval c o).swarm := rfl
    have e3 : (graft b (recordEval c o)).top = (recordEval c o).top := rfl
    rw [e2, e3]
    split
    · rfl
    · next t g hg =>
      rw [recordBest_graft, moveSwarm_graft]
      have e4 : (graft b (recordBest t g (recordEval c o))).swarm =
        (recordBest t g (recordEval c o)).swarm := rfl
      rw [e4]
      generalize moveSwarm cfg r iters i (recordBest t g (recordEval c o)) = u
      obtain ⟨s3, e | ⟨⟩⟩ := u <;> split <;> rfl

theorem loop_graft (cfg : Config n d K) (ev : Nat → Mat n d K → Except Err (Costs n K))
    (env : Nat → Draw n d K) (iters m i : Nat) (q : List Bool) (b o : Opt n d K) :
    loop cfg ev env iters m i q (graft b o) =
      (graft b (loop cfg ev env iters m i q o).1, (loop cfg ev env iters m i q o).2) := by
  induction m generalizing i q o with
  | zero => rfl
  | succ m ih =>
    rw [loop, loop, iterate_graft]
    generalize iterate cfg (ev i) (env i) iters i q o = u
    obtain ⟨s3, e | f⟩ := u
    · rfl
    · cases f with
      | stop => rfl
      | «continue» q' => exact ih _ _ _

/-- A topology other than Star ignores the previous best. -/
theorem callGbest_forget (cfg : Config n d K) (hk : ¬ cfg.kind.isStar) (o : Oracle n d K)
    (t : TopState n) (s : Swarm n d K) (bp : BestPos n d K) (bc : Option (XR K)) :
    callGbest cfg o t { s with bestPos := bp, bestCost := bc } = callGbest cfg o t s := by
  unfold callGbest
  rcases h : cfg.kind with _ | _ | top | _ <;> simp only [h, Kind.isStar] at hk ⊢
  · exact absurd trivial hk
  · rfl
  · cases top <;> first | rfl | exact absurd trivial hk
  · rfl

theorem callGbest_improved (cfg : Config n d K) (o : Oracle n d K)
    (t : TopState n) (s : Swarm n d K) (bp : BestPos n d K)
    (hs : ∀ i, XR.lt (s.pbestCost i) XR.pinf = true)
    (himp : cfg.kind.isStar → ∃ i, XR.lt (s.pbestCost i) s.bestCostVal = true) :
    callGbest cfg o t { s with bestPos := bp, bestCost := none } = callGbest cfg o t s := by
  by_cases hk : cfg.kind.isStar
  · rw [callGbest_star cfg hk, callGbest_star cfg hk]
    obtain ⟨i, hi⟩ := himp hk
    have hnn : ∀ i, s.pbestCost i ≠ XR.nan := fun i => XR.left_ne_nan (hs i)
    obtain ⟨k, h1, h2, -⟩ := npArgmin_spec s.pbestCost (by have := i.isLt; omega) hnn
    have h3 : XR.lt (s.pbestCost k) s.bestCostVal = true :=
      XR.lt_of_not_lt_of_lt (hnn k) (h2 i) hi
    unfold starGbest
    simp only [h1, h3, if_true]
    have h4 : XR.lt (s.pbestCost k)
        ({ s with bestPos := bp, bestCost := none } : Swarm n d K).bestCostVal = true := hs k
    rw [if_pos h4]
  · exact callGbest_forget cfg hk o t s bp none

/-- **C81** (continuing a run).  Consider any optimizer object, whatever it has been used for, with
`ftol = -inf`, and let the first evaluation of a further call of `optimize` succeed with every cost
below infinity; for a Star topology let it also improve on the remembered best cost.  Then the call
does what it would do on a new object at the same positions and velocities: it raises or returns the
same, the new records are the records of that object, and when it returns the swarm is the same. -/
theorem C81_continue [IsStrictOrderedRing K] (cfg : Config n d K) (hft : cfg.ftol = XR.ninf)
    (hw : 0 < cfg.window) (ev : Nat → Mat n d K → Except Err (Costs n K)) (iters : Nat)
    (hi : 0 < iters) (nproc : Option Nat) (env : Nat → Draw n d K) (s : Opt n d K) (c : Costs n K)
    (h0 : ev 0 s.swarm.position = .ok c) (hc : ∀ i, XR.lt (c i) XR.pinf = true)
    (himp : cfg.kind.isStar → ∃ i, XR.lt (c i) s.swarm.bestCostVal = true) :
    let a := optimize cfg ev iters nproc env s
    let b := optimize cfg ev iters nproc env s.forget
    a.2 = b.2 ∧
      a.1.costHistory = s.costHistory ++ b.1.costHistory ∧
      a.1.meanPbestHistory = s.meanPbestHistory ++ b.1.meanPbestHistory ∧
      a.1.meanNeighborHistory = s.meanNeighborHistory ++ b.1.meanNeighborHistory ∧
      a.1.posHistory = s.posHistory ++ b.1.posHistory ∧
      a.1.velocityHistory = s.velocityHistory ++ b.1.velocityHistory ∧
      a.1.evals = s.evals ++ b.1.evals ∧
      ∀ v, a.2 = .ok v → a.1.swarm = b.1.swarm ∧ a.1.top = b.1.top := by
  obtain ⟨m, rfl⟩ : ∃ m, iters = m + 1 := ⟨iters - 1, by omega⟩
  dsimp only
  by_cases hp : nproc = some 0
  · subst hp
    simp [optimize, Opt.forget]
  unfold optimize
  rw [if_neg hp, if_neg hp]
  dsimp only
  generalize hS : ({ prepare cfg s with
    openPools := s.openPools + (if nproc.isSome then 1 else 0) } : Opt n d K) = S
  generalize hO : ({ prepare cfg s.forget with
    openPools := s.forget.openPools + (if nproc.isSome then 1 else 0) } : Opt n d K) = O
  -- after the first evaluation the two differ in the remembered best only
  have hrec : recordEval c S = { graft S (recordEval c O) with
      swarm := { (recordEval c O).swarm with
        bestPos := s.swarm.bestPos, bestCost := s.swarm.bestCost } } := by
    subst hS; subst hO
    simp [recordEval, graft, computePbest, prepare, Opt.forget, mkSwarm, hc]
  have hSp : S.swarm.position = s.swarm.position := by subst hS; rfl
  have hOp : O.swarm.position = s.swarm.position := by subst hO; rfl
  have hpb : (recordEval c O).swarm.pbestCost = c := by
    subst hO
    funext i
    simp [recordEval, computePbest, prepare, hc i]
  have hgb : callGbest cfg (env 0).oracle (recordEval c S).top (recordEval c S).swarm =
      callGbest cfg (env 0).oracle (recordEval c O).top (recordEval c O).swarm := by
    have e1 : (recordEval c O).swarm = { (recordEval c S).swarm with
        bestPos := .empty, bestCost := none } := by
      rw [hrec]; subst hO; rfl
    have e2 : (recordEval c S).top = (recordEval c O).top := by rw [hrec]; rfl
    rw [e1, e2]
    refine (callGbest_improved cfg (env 0).oracle _ (recordEval c S).swarm .empty ?_ ?_).symm
    · intro i; rw [hrec]; show XR.lt ((recordEval c O).swarm.pbestCost i) _ = true
      rw [hpb]; exact hc i
    · intro hk
      obtain ⟨i, hi⟩ := himp hk
      refine ⟨i, ?_⟩
      rw [hrec]
      show XR.lt ((recordEval c O).swarm.pbestCost i) s.swarm.bestCostVal = true
      rw [hpb]; exact hi
  have hcost : S.costHistory = s.costHistory := by subst hS; rfl
  have hmp : S.meanPbestHistory = s.meanPbestHistory := by subst hS; rfl
  have hmn : S.meanNeighborHistory = s.meanNeighborHistory := by subst hS; rfl
  have hpo : S.posHistory = s.posHistory := by subst hS; rfl
  have hve : S.velocityHistory = s.velocityHistory := by subst hS; rfl
  have hevs : S.evals = s.evals := by subst hS; rfl
  generalize hG : callGbest cfg (env 0).oracle (recordEval c O).top (recordEval c O).swarm = G at hgb
  obtain ⟨t, e | g⟩ := G
  · -- the topology raises in both calls
    have hSi : iterate cfg (ev 0) (env 0) (m + 1) 0 [] S =
        ({ recordEval c S with top := t }, .error e) := by
      unfold iterate; simp only [hSp, h0, hgb]
    have hOi : iterate cfg (ev 0) (env 0) (m + 1) 0 [] O =
        ({ recordEval c O with top := t }, .error e) := by
      unfold iterate; simp only [hOp, h0, hG]
    rw [loop, loop, hSi, hOi]
    dsimp only
    rw [hrec]
    refine ⟨rfl, ?_, ?_, ?_, ?_, ?_, ?_, fun v hv => by cases hv⟩
    · rw [← hcost]; rfl
    · rw [← hmp]; rfl
    · rw [← hmn]; rfl
    · rw [← hpo]; rfl
    · rw [← hve]; rfl
    · rw [← hevs]; rfl
  · have hrb : recordBest t g (recordEval c S) = graft S (recordBest t g (recordEval c O)) := by
      rw [hrec]
      simp [recordBest, graft, Opt.populateHistory, Swarm.bestCostVal]
    have hSi := iterate_never cfg hft hw (ev 0) (env 0) (m + 1) 0 [] S c t g (by rw [hSp]; exact h0) hgb
    have hOi := iterate_never cfg hft hw (ev 0) (env 0) (m + 1) 0 [] O c t g (by rw [hOp]; exact h0) hG
    have hL : loop cfg ev env (m + 1) (m + 1) 0 [] S =
        (graft S (loop cfg ev env (m + 1) (m + 1) 0 [] O).1,
          (loop cfg ev env (m + 1) (m + 1) 0 [] O).2) := by
      rw [loop, loop, hSi, hOi, hrb, moveSwarm_graft]
      generalize moveSwarm cfg (env 0) (m + 1) 0 (recordBest t g (recordEval c O)) = u
      obtain ⟨s3, e | ⟨⟩⟩ := u
      · rfl
      · exact loop_graft cfg ev env (m + 1) m 1 _ S s3
    rw [hL]
    generalize loop cfg ev env (m + 1) (m + 1) 0 [] O = u
    obtain ⟨s3, e | ⟨⟩⟩ := u
    · dsimp only
      rw [← hcost, ← hmp, ← hmn, ← hpo, ← hve, ← hevs]
      exact ⟨rfl, rfl, rfl, rfl, rfl, rfl, rfl, fun v hv => by cases hv⟩
    · dsimp only
      have hf : finish (graft S s3) = finish s3 := rfl
      rw [hf, ← hcost, ← hmp, ← hmn, ← hpo, ← hve, ← hevs]
      cases finish s3 with
      | error e => exact ⟨rfl, rfl, rfl, rfl, rfl, rfl, rfl, fun v hv => by cases hv⟩
      | ok v => exact ⟨rfl, rfl, rfl, rfl, rfl, rfl, rfl, fun v hv => ⟨rfl, rfl⟩⟩

/-! ### The hypotheses can be met -/

section
open Ex

/-- The default configurations have constant options and never converge. -/
example : (gcfg 2 1).ConstOptions ∧ (bcfg 2 1 1).ConstOptions ∧ 0 < (gcfg 2 1).window ∧
    (gcfg 2 1).ftol = XR.ninf := ⟨.inr rfl, .inl rfl, by decide, rfl⟩

/-- C79: two calls, of 2 and of 4 iterations, with records of different lengths. -/
example : (match construct (gcfg 2 1) (init 2 1) (init 2 1) with
    | .ok s =>
      match optimize (gcfg 2 1) (sphere 2 1) 2 none (fun _ => draw 2 1) s,
          optimize (gcfg 2 1) (sphere 2 1) 4 none (fun _ => draw 2 1) s with
      | (a, .ok _), (b, .ok _) => decide (a.costHistory.length = 2 ∧ b.costHistory.length = 4 ∧
          a.evals.length = 2 ∧ b.costHistory.take 2 = a.costHistory)
      | _, _ => false
    | _ => false) = true := by decide +kernel

/-- C79 (converged), C80: with `ftol = 1` a call asking for 5 iterations stops before. -/
example : (match construct { gcfg 2 1 with ftol := .fin 1 } (init 2 1) (init 2 1) with
    | .ok s =>
      match optimize { gcfg 2 1 with ftol := .fin 1 } (sphere 2 1) 5 none (fun _ => draw 2 1) s with
      | (a, .ok _) => decide (a.costHistory.length < s.costHistory.length + 5 ∧
          0 < a.costHistory.length)
      | _ => false
    | _ => false) = true := by decide +kernel

/-- An objective without minimum: `-x`. -/
def downhill : Nat → Mat 2 1 ℚ → Except Err (Costs 2 ℚ) := fun _ x => .ok fun i => .fin (- x i 0)

/-- C81: after a call, the first evaluation of a further call improves on the remembered best. -/
example : (match construct (gcfg 2 1) (init 2 1) (init 2 1) with
    | .ok s =>
      match optimize (gcfg 2 1) downhill 1 none (fun _ => draw 2 1) s with
      | (a, .ok _) =>
        match downhill 0 a.swarm.position with
        | .ok c => decide ((∀ i, XR.lt (c i) XR.pinf = true) ∧ a.costHistory ≠ [] ∧
            ∃ i, XR.lt (c i) a.swarm.bestCostVal = true)
        | _ => false
      | _ => false
    | _ => false) = true := by decide +kernel

end

theorem ok_of_check {o : Except Err (XR ℚ × Vec 1 ℚ)} {x : XR ℚ}
    (h : (match o with | .ok (c, _) => decide (c = x) | .error _ => false) = true) :
    ∃ p, o = .ok (x, p) := by
  match o, h with
  | .ok (c, p), h => exact ⟨p, by rw [of_decide_eq_true h]⟩

/-- **C81** (Star remembers).  The condition for the Star topology cannot be dropped: a further call
whose evaluations do not improve on the remembered best returns the cost remembered from the earlier
call, which a new object at the same positions and velocities would not return. -/
theorem C81_star_remembers : ∃ (s : Opt 2 1 ℚ), Reachable (Ex.gcfg 2 1) s ∧
    (∃ p, (optimize (Ex.gcfg 2 1) (fun _ _ => .ok fun _ => .fin 1000) 1 none
        (fun _ => Ex.draw 2 1) s).2 = .ok (s.swarm.bestCostVal, p)) ∧
      (∃ p, (optimize (Ex.gcfg 2 1) (fun _ _ => .ok fun _ => .fin 1000) 1 none
        (fun _ => Ex.draw 2 1) s.forget).2 = .ok (.fin 1000, p)) ∧
      XR.lt s.swarm.bestCostVal (.fin 1000) = true := by
  have hc : ∃ s0, construct (Ex.gcfg 2 1) (Ex.init 2 1) (Ex.init 2 1) = .ok s0 := ⟨_, rfl⟩
  obtain ⟨s0, hc⟩ := hc
  refine ⟨_, ⟨_, _, s0, [.optimize (Ex.sphere 2 1) 1 none (fun _ => Ex.draw 2 1)], hc, rfl⟩, ?_⟩
  cases hc
  exact ⟨ok_of_check (by decide +kernel), ok_of_check (by decide +kernel), by decide +kernel⟩

end PySwarms
