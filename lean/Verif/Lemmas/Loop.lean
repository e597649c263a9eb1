import Verif.Model.Optimizer
import Verif.Lemmas.XR

/-! Structural lemmas about one iteration and the loop. -/

set_option linter.unusedSectionVars false

namespace PySwarms

variable {n d : Nat} {K : Type} [Field K] [LinearOrder K] [Transc K] [FloorRing K]

/-- All the ways one iteration can end. -/
inductive IterCase (cfg : Config n d K) (ev : Mat n d K → Except Err (Costs n K)) (r : Draw n d K)
    (iters i : Nat) (q : List Bool) (s : Opt n d K) : Opt n d K → Except Err Flow → Prop
  | evalError (e : Err) (h : ev s.swarm.position = .error e) :
      IterCase cfg ev r iters i q s s (.error e)
  | gbestError (c : Costs n K) (t : TopState n) (e : Err)
      (h : ev s.swarm.position = .ok c)
      (hg : callGbest cfg r.oracle (recordEval c s).top (recordEval c s).swarm = (t, .error e)) :
      IterCase cfg ev r iters i q s { recordEval c s with top := t } (.error e)
  | stop (c : Costs n K) (t : TopState n) (g : GBest n d K)
      (h : ev s.swarm.position = .ok c)
      (hg : callGbest cfg r.oracle (recordEval c s).top (recordEval c s).swarm = (t, .ok g))
      (hi : cfg.window ≤ i)
      (hq : (dequeAppend cfg.window q (ftolDelta cfg.ftol
        (recordBest t g (recordEval c s)).swarm.bestCostVal s.swarm.bestCostVal)).all id = true) :
      IterCase cfg ev r iters i q s (recordBest t g (recordEval c s)) (.ok .stop)
  | moveError (c : Costs n K) (t : TopState n) (g : GBest n d K) (s' : Opt n d K) (e : Err)
      (h : ev s.swarm.position = .ok c)
      (hg : callGbest cfg r.oracle (recordEval c s).top (recordEval c s).swarm = (t, .ok g))
      (hns : ¬ (cfg.window ≤ i ∧ (dequeAppend cfg.window q (ftolDelta cfg.ftol
        (recordBest t g (recordEval c s)).swarm.bestCostVal s.swarm.bestCostVal)).all id = true))
      (hm : moveSwarm cfg r iters i (recordBest t g (recordEval c s)) = (s', .error e)) :
      IterCase cfg ev r iters i q s s' (.error e)
  | moved (c : Costs n K) (t : TopState n) (g : GBest n d K) (s' : Opt n d K)
      (h : ev s.swarm.position = .ok c)
      (hg : callGbest cfg r.oracle (recordEval c s).top (recordEval c s).swarm = (t, .ok g))
      (hns : ¬ (cfg.window ≤ i ∧ (dequeAppend cfg.window q (ftolDelta cfg.ftol
        (recordBest t g (recordEval c s)).swarm.bestCostVal s.swarm.bestCostVal)).all id = true))
      (hm : moveSwarm cfg r iters i (recordBest t g (recordEval c s)) = (s', .ok ())) :
      IterCase cfg ev r iters i q s s' (.ok (.continue (dequeAppend cfg.window q
        (ftolDelta cfg.ftol (recordBest t g (recordEval c s)).swarm.bestCostVal
          s.swarm.bestCostVal))))

theorem recordEval_bestCostVal (c : Costs n K) (s : Opt n d K) :
    (recordEval c s).swarm.bestCostVal = s.swarm.bestCostVal := rfl

theorem iterate_cases (cfg : Config n d K) (ev : Mat n d K → Except Err (Costs n K))
    (r : Draw n d K) (iters i : Nat) (q : List Bool) (s : Opt n d K) :
    IterCase cfg ev r iters i q s (iterate cfg ev r iters i q s).1
      (iterate cfg ev r iters i q s).2 := by
  unfold iterate
  split
  · next e he => exact .evalError e he
  · next c hc =>
    simp only []
    split
    · next t e hg => exact .gbestError c t e hc hg
    · next t g hg =>
      split
      · next hstop =>
        simp only [Bool.and_eq_true, decide_eq_true_eq, not_lt] at hstop
        exact .stop c t g hc hg hstop.1 hstop.2
      · next hstop =>
        have hns : ¬ (cfg.window ≤ i ∧ (dequeAppend cfg.window q (ftolDelta cfg.ftol
          (recordBest t g (recordEval c s)).swarm.bestCostVal s.swarm.bestCostVal)).all id
            = true) := by
          simpa only [Bool.and_eq_true, decide_eq_true_eq, not_lt, recordEval_bestCostVal]
            using hstop
        split
        · next s3 e hm => exact .moveError c t g s3 e hc hg hns hm
        · next s3 hm => exact .moved c t g s3 hc hg hns hm

/-- Every state invariant of `iterate` is an invariant of `loop` (at every exit). -/
theorem loop_inv (cfg : Config n d K) (ev : Nat → Mat n d K → Except Err (Costs n K))
    (env : Nat → Draw n d K) (iters : Nat) (I : Opt n d K → Prop)
    (h : ∀ i q s, I s → I (iterate cfg (ev i) (env i) iters i q s).1)
    (m i : Nat) (q : List Bool) (s : Opt n d K) (hs : I s) :
    I (loop cfg ev env iters m i q s).1 := by
  induction m generalizing i q s with
  | zero => exact hs
  | succ m ih =>
    have h1 := h i q s hs
    unfold loop
    split
    · next s' e he => rw [he] at h1; exact h1
    · next s' he => rw [he] at h1; exact h1
    · next s' q' he => rw [he] at h1; exact ih _ _ _ h1

/-- `moveSwarm` only touches options, velocity, position and the handler memories. -/
theorem moveSwarm_frame (cfg : Config n d K) (r : Draw n d K) (iters i : Nat) (s : Opt n d K) :
    let s' := (moveSwarm cfg r iters i s).1
    s'.swarm.pbestPos = s.swarm.pbestPos ∧ s'.swarm.pbestCost = s.swarm.pbestCost ∧
    s'.swarm.bestPos = s.swarm.bestPos ∧ s'.swarm.bestCost = s.swarm.bestCost ∧
    s'.swarm.currentCost = s.swarm.currentCost ∧ s'.top = s.top ∧
    s'.costHistory = s.costHistory ∧ s'.meanPbestHistory = s.meanPbestHistory ∧
    s'.meanNeighborHistory = s.meanNeighborHistory ∧ s'.posHistory = s.posHistory ∧
    s'.velocityHistory = s.velocityHistory ∧ s'.evals = s.evals ∧ s'.openPools = s.openPools := by
  unfold moveSwarm
  split
  · simp
  · simp only []
    split
    · simp
    · split <;> simp

end PySwarms
