import Verif.Model.Rounded
import Verif.Lemmas.Cover

/-! Structural lemmas about the optimizers in rounded arithmetic. -/

set_option linter.unusedSectionVars false

namespace PySwarms

variable {n d : Nat} {K : Type} [Field K] [LinearOrder K] [Transc K] [FloorRing K]

/-- The two states agree on everything that concerns best values and the log. -/
structure SameBests (a b : Opt n d K) : Prop where
  pbestPos : a.swarm.pbestPos = b.swarm.pbestPos
  pbestCost : a.swarm.pbestCost = b.swarm.pbestCost
  bestPos : a.swarm.bestPos = b.swarm.bestPos
  bestCost : a.swarm.bestCost = b.swarm.bestCost
  top : a.top = b.top
  costHistory : a.costHistory = b.costHistory
  posHistory : a.posHistory = b.posHistory
  velocityHistory : a.velocityHistory = b.velocityHistory
  evals : a.evals = b.evals

theorem sameBests_move (A : Arith n d K) (cfg : Config n d K) (r : Draw n d K) (iters i : Nat)
    (s : Opt n d K) : SameBests (moveSwarmR A cfg r iters i s).1 s := by
  unfold moveSwarmR
  split
  · constructor <;> rfl
  · simp only []
    split
    · constructor <;> rfl
    · split <;> constructor <;> rfl

theorem sameBests_recordBestR (A : Arith n d K) (t : TopState n) (g : GBest n d K) (s : Opt n d K) :
    SameBests (recordBestR A t g s) (recordBest t g s) := by
  constructor <;> rfl

theorem SameBests.trans {a b c : Opt n d K} (h : SameBests a b) (h' : SameBests b c) :
    SameBests a c := by
  obtain ⟨h1, h2, h3, h4, h5, h6, h7, h8, h9⟩ := h
  obtain ⟨k1, k2, k3, k4, k5, k6, k7, k8, k9⟩ := h'
  exact ⟨h1.trans k1, h2.trans k2, h3.trans k3, h4.trans k4, h5.trans k5, h6.trans k6,
    h7.trans k7, h8.trans k8, h9.trans k9⟩

/-- All the ways one iteration in rounded arithmetic can end, as far as best values and the log are
concerned. -/
inductive IterCaseR (cfg : Config n d K) (ev : Mat n d K → Except Err (Costs n K)) (r : Draw n d K)
    (s : Opt n d K) : Opt n d K → Except Err Flow → Prop
  | evalError (e : Err) (h : ev s.swarm.position = .error e) : IterCaseR cfg ev r s s (.error e)
  | gbestError (c : Costs n K) (t : TopState n) (e : Err) (h : ev s.swarm.position = .ok c)
      (hg : callGbest cfg r.oracle (recordEval c s).top (recordEval c s).swarm = (t, .error e)) :
      IterCaseR cfg ev r s { recordEval c s with top := t } (.error e)
  | recorded (c : Costs n K) (t : TopState n) (g : GBest n d K) (s' : Opt n d K)
      (o : Except Err Flow) (h : ev s.swarm.position = .ok c)
      (hg : callGbest cfg r.oracle (recordEval c s).top (recordEval c s).swarm = (t, .ok g))
      (hs : SameBests s' (recordBest t g (recordEval c s))) : IterCaseR cfg ev r s s' o

theorem iterateR_cases (A : Arith n d K) (cfg : Config n d K)
    (ev : Mat n d K → Except Err (Costs n K)) (r : Draw n d K) (iters i : Nat) (q : List Bool)
    (s : Opt n d K) :
    IterCaseR cfg ev r s (iterateR A cfg ev r iters i q s).1 (iterateR A cfg ev r iters i q s).2 := by
  unfold iterateR
  split
  · next e he => exact .evalError e he
  · next c hc =>
    simp only []
    split
    · next t e hg => exact .gbestError c t e hc hg
    · next t g hg =>
      have hb := sameBests_recordBestR A t g (recordEval c s)
      have hm := (sameBests_move A cfg r iters i (recordBestR A t g (recordEval c s))).trans hb
      split
      · exact .recorded c t g _ _ hc hg hb
      · split
        · next s3 e h => rw [h] at hm; exact .recorded c t g _ _ hc hg hm
        · next s3 h => rw [h] at hm; exact .recorded c t g _ _ hc hg hm

theorem loopR_inv (A : Arith n d K) (cfg : Config n d K)
    (ev : Nat → Mat n d K → Except Err (Costs n K))
    (env : Nat → Draw n d K) (iters : Nat) (I : Opt n d K → Prop)
    (h : ∀ i q s, I s → I (iterateR A cfg (ev i) (env i) iters i q s).1)
    (m i : Nat) (q : List Bool) (s : Opt n d K) (hs : I s) :
    I (loopR A cfg ev env iters m i q s).1 := by
  induction m generalizing i q s with
  | zero => exact hs
  | succ m ih =>
    have h1 := h i q s hs
    unfold loopR
    split
    · next s' e he => rw [he] at h1; exact h1
    · next s' he => rw [he] at h1; exact h1
    · next s' q' he => rw [he] at h1; exact ih _ _ _ h1

/-- All the ways a call can end. -/
inductive OptCaseR (A : Arith n d K) (cfg : Config n d K)
    (ev : Nat → Mat n d K → Except Err (Costs n K)) (iters : Nat) (nproc : Option Nat)
    (env : Nat → Draw n d K) (s : Opt n d K) : Opt n d K → Except Err (XR K × Vec d K) → Prop
  | badPool (h : nproc = some 0) :
      OptCaseR A cfg ev iters nproc env s
        { s with bhMem := (prepare cfg s).bhMem, vhMem := (prepare cfg s).vhMem }
        (.error .valueError)
  | loopError (s1 : Opt n d K) (e : Err) (hp : nproc ≠ some 0)
      (h : loopR A cfg ev env iters iters 0 [] (startState cfg nproc s) = (s1, .error e)) :
      OptCaseR A cfg ev iters nproc env s s1 (.error e)
  | finishError (s1 : Opt n d K) (e : Err) (hp : nproc ≠ some 0)
      (h : loopR A cfg ev env iters iters 0 [] (startState cfg nproc s) = (s1, .ok ()))
      (hf : finish s1 = .error e) :
      OptCaseR A cfg ev iters nproc env s s1 (.error e)
  | done (s1 : Opt n d K) (r : XR K × Vec d K) (hp : nproc ≠ some 0)
      (h : loopR A cfg ev env iters iters 0 [] (startState cfg nproc s) = (s1, .ok ()))
      (hf : finish s1 = .ok r) :
      OptCaseR A cfg ev iters nproc env s
        { s1 with openPools := s1.openPools - (if nproc.isSome then 1 else 0) } (.ok r)

theorem optimizeR_cases (A : Arith n d K) (cfg : Config n d K)
    (ev : Nat → Mat n d K → Except Err (Costs n K))
    (iters : Nat) (nproc : Option Nat) (env : Nat → Draw n d K) (s : Opt n d K) :
    OptCaseR A cfg ev iters nproc env s (optimizeR A cfg ev iters nproc env s).1
      (optimizeR A cfg ev iters nproc env s).2 := by
  unfold optimizeR
  split
  · next h => exact .badPool h
  · next hp =>
    simp only []
    split
    · next s1 e h => exact .loopError s1 e hp h
    · next s1 h =>
      split
      · next e hf => exact .finishError s1 e hp h hf
      · next r hf => exact .done s1 r hp h hf

theorem optimizeR_inv2 (A : Arith n d K) (cfg : Config n d K)
    (ev : Nat → Mat n d K → Except Err (Costs n K))
    (iters : Nat) (nproc : Option Nat) (env : Nat → Draw n d K) (I J : Opt n d K → Prop)
    (hstart : ∀ s, I s → J (startState cfg nproc s))
    (hiter : ∀ i q s, J s → J (iterateR A cfg (ev i) (env i) iters i q s).1)
    (hend : ∀ s c, J s → I { s with openPools := c })
    (hbad : ∀ s a b, I s → I { s with bhMem := a, vhMem := b })
    (s : Opt n d K) (hs : I s) : I (optimizeR A cfg ev iters nproc env s).1 := by
  have hc := optimizeR_cases A cfg ev iters nproc env s
  have hl := loopR_inv A cfg ev env iters J hiter iters 0 [] _ (hstart s hs)
  generalize (optimizeR A cfg ev iters nproc env s).1 = s' at hc ⊢
  generalize (optimizeR A cfg ev iters nproc env s).2 = o at hc
  cases hc with
  | badPool h => exact hbad s _ _ hs
  | loopError s1 e hp h => rw [h] at hl; exact hend _ s'.openPools hl
  | finishError s1 e hp h hf => rw [h] at hl; exact hend _ s'.openPools hl
  | done s1 r hp h hf => rw [h] at hl; exact hend _ _ hl

theorem optimizeR_ok (A : Arith n d K) (cfg : Config n d K)
    (ev : Nat → Mat n d K → Except Err (Costs n K))
    (iters : Nat) (nproc : Option Nat) (env : Nat → Draw n d K) (s s' : Opt n d K)
    (c : XR K) (p : Vec d K) (h : optimizeR A cfg ev iters nproc env s = (s', .ok (c, p))) :
    nproc ≠ some 0 ∧
    ∃ s1, loopR A cfg ev env iters iters 0 [] (startState cfg nproc s) = (s1, .ok ()) ∧
      s' = { s1 with openPools := s1.openPools - (if nproc.isSome then 1 else 0) } ∧
      s1.swarm.bestCost = some c ∧
      ∃ k, npArgmin s1.swarm.pbestCost = some k ∧ p = s1.swarm.pbestPos k := by
  have hc := optimizeR_cases A cfg ev iters nproc env s
  rw [h] at hc
  simp only at hc
  cases hc with
  | done s1 r hp hl hf =>
    refine ⟨hp, s1, hl, rfl, ?_⟩
    unfold finish at hf
    split at hf
    · cases hf
    · next c' hbc =>
      split at hf
      · cases hf
      · next k hk =>
        cases hf
        exact ⟨hbc, k, hk, rfl⟩

/-- The log written by the loop is the sequence of evaluations of the objective. -/
theorem loopR_log (A : Arith n d K) (cfg : Config n d K)
    (ev : Nat → Mat n d K → Except Err (Costs n K))
    (env : Nat → Draw n d K) (iters : Nat) (m i : Nat) (q : List Bool) (s : Opt n d K) :
    ∃ E, (loopR A cfg ev env iters m i q s).1.evals = s.evals ++ E ∧ E.length ≤ m ∧
      ∀ (k : Nat) (h : k < E.length), ev (i + k) E[k].1 = .ok E[k].2 := by
  induction m generalizing i q s with
  | zero => exact ⟨[], by simp [loopR], by simp, by simp⟩
  | succ m ih =>
    have hc := iterateR_cases A cfg (ev i) (env i) iters i q s
    have one : ∀ c, ev i s.swarm.position = .ok c →
        ∃ E, (s.evals ++ [(s.swarm.position, c)]) = s.evals ++ E ∧ E.length ≤ m + 1 ∧
          ∀ (k : Nat) (h : k < E.length), ev (i + k) E[k].1 = .ok E[k].2 := by
      intro c hcv
      refine ⟨[(s.swarm.position, c)], rfl, by simp, ?_⟩
      intro k hk
      have : k = 0 := by simpa using hk
      subst this; simpa using hcv
    unfold loopR
    generalize hit : iterateR A cfg (ev i) (env i) iters i q s = res at hc
    obtain ⟨s', o⟩ := res
    simp only at hc ⊢
    cases hc with
    | evalError e h => exact ⟨[], by simp, by simp, by simp⟩
    | gbestError c t e h hg => exact one c h
    | recorded c t g s' o h hg hs =>
      have hev : s'.evals = s.evals ++ [(s.swarm.position, c)] := by rw [hs.evals]; rfl
      match o with
      | .error e => simp only; rw [hev]; exact one c h
      | .ok .stop => simp only; rw [hev]; exact one c h
      | .ok (.continue q') =>
        simp only
        obtain ⟨E, h1, h2, h3⟩ := ih (i + 1) q' s'
        refine ⟨(s.swarm.position, c) :: E, ?_, by simp; omega, ?_⟩
        · rw [h1, hev]; simp
        · intro k hk
          cases k with
          | zero => simpa using h
          | succ k =>
            have := h3 k (by simpa using hk)
            simpa [Nat.add_assoc, Nat.add_comm, Nat.add_left_comm] using this

theorem loopR_last (A : Arith n d K) (cfg : Config n d K)
    (ev : Nat → Mat n d K → Except Err (Costs n K))
    (env : Nat → Draw n d K) (iters : Nat) (m i : Nat) (hm : 0 < m) (q : List Bool)
    (s s1 : Opt n d K) (h : loopR A cfg ev env iters m i q s = (s1, .ok ())) :
    ∃ j t0 sw, callGbest cfg (env j).oracle t0 sw =
        (s1.top, .ok (s1.swarm.bestPos, s1.swarm.bestCost)) ∧
      sw.pbestPos = s1.swarm.pbestPos ∧ sw.pbestCost = s1.swarm.pbestCost ∧
      s1.costHistory.getLast? = some s1.swarm.bestCostVal := by
  induction m generalizing i q s with
  | zero => omega
  | succ m ih =>
    have hc := iterateR_cases A cfg (ev i) (env i) iters i q s
    unfold loopR at h
    generalize hit : iterateR A cfg (ev i) (env i) iters i q s = res at hc h
    obtain ⟨s', o⟩ := res
    simp only at hc h
    cases hc with
    | evalError => cases h
    | gbestError => cases h
    | recorded c t g s' o he hg hs =>
      have fin : ∃ j t0 sw, callGbest cfg (env j).oracle t0 sw =
          (s'.top, .ok (s'.swarm.bestPos, s'.swarm.bestCost)) ∧
          sw.pbestPos = s'.swarm.pbestPos ∧ sw.pbestCost = s'.swarm.pbestCost ∧
          s'.costHistory.getLast? = some s'.swarm.bestCostVal := by
        refine ⟨i, (recordEval c s).top, (recordEval c s).swarm, ?_, ?_, ?_, ?_⟩
        · rw [hs.bestPos, hs.bestCost, hs.top]; exact hg
        · rw [hs.pbestPos]; rfl
        · rw [hs.pbestCost]; rfl
        · rw [hs.costHistory]
          simp [recordBest, Opt.populateHistory, Swarm.bestCostVal, hs.bestCost]
      match o, h with
      | .ok .stop, h => cases h; exact fin
      | .ok (.continue q'), h =>
        simp only at h
        cases m with
        | zero => simp only [loopR] at h; cases h; exact fin
        | succ m => exact ih (i + 1) (by omega) q' s' h

/-! ### Invariants -/

theorem pInv_iterateR {base : List (Mat n d K × Costs n K)} {old : Mat n d K}
    (A : Arith n d K) (cfg : Config n d K) (ev : Mat n d K → Except Err (Costs n K)) (r : Draw n d K)
    (iters i : Nat) (q : List Bool) (s : Opt n d K) (h : PInv base old s) :
    PInv base old (iterateR A cfg ev r iters i q s).1 := by
  have hc := iterateR_cases A cfg ev r iters i q s
  generalize (iterateR A cfg ev r iters i q s).1 = s' at hc ⊢
  generalize (iterateR A cfg ev r iters i q s).2 = o at hc
  cases hc with
  | evalError => exact h
  | gbestError c t e => exact pInv_congr (pInv_recordEval h c) rfl rfl rfl
  | recorded c t g s' o _ _ hs =>
    exact pInv_congr (pInv_recordEval h c) hs.evals hs.pbestPos hs.pbestCost

theorem starInv_iterateR (hn : 0 < n) (A : Arith n d K) (cfg : Config n d K)
    (hk : cfg.kind.isStar) (ev : Mat n d K → Except Err (Costs n K)) (r : Draw n d K)
    (iters i : Nat) (q : List Bool) (s : Opt n d K) (h : StarInv s) :
    StarInv (iterateR A cfg ev r iters i q s).1 := by
  have hc := iterateR_cases A cfg ev r iters i q s
  generalize (iterateR A cfg ev r iters i q s).1 = s' at hc ⊢
  generalize (iterateR A cfg ev r iters i q s).2 = o at hc
  cases hc with
  | evalError => exact h
  | gbestError c t e _ hg =>
    exfalso
    rw [callGbest_star cfg hk] at hg
    obtain ⟨t'', k, _, _, _, hcase⟩ := starGbest_spec hn (recordEval c s).top
      (recordEval c s).swarm (fun i => (pbFacts_recordEval h.pb c i).1)
    rcases hcase with ⟨_, heq⟩ | ⟨_, heq⟩ <;> (rw [heq] at hg; cases hg)
  | recorded c t g s' o _ hg hs =>
    rw [callGbest_star cfg hk] at hg
    exact starInv_congr (starInv_record hn h c hg) hs.evals hs.pbestCost hs.bestCost
      hs.costHistory

theorem starInv_optimizeR (hn : 0 < n) (A : Arith n d K) (cfg : Config n d K)
    (hk : cfg.kind.isStar) (ev : Nat → Mat n d K → Except Err (Costs n K)) (iters : Nat)
    (nproc : Option Nat) (env : Nat → Draw n d K) (s : Opt n d K) (h : StarInv s) :
    StarInv (optimizeR A cfg ev iters nproc env s).1 :=
  optimizeR_inv2 A cfg ev iters nproc env StarInv StarInv
    (fun _ hs => starInv_congr (starInv_prep hs) rfl rfl rfl rfl)
    (fun i q s hs => starInv_iterateR hn A cfg hk (ev i) (env i) iters i q s hs)
    (fun _ _ hs => starInv_congr hs rfl rfl rfl rfl)
    (fun _ _ _ hs => starInv_congr hs rfl rfl rfl rfl) s h

theorem noNan_iterateR (A : Arith n d K) (cfg : Config n d K)
    (ev : Mat n d K → Except Err (Costs n K)) (r : Draw n d K) (iters i : Nat) (q : List Bool)
    (s : Opt n d K) (h : NoNan s) : NoNan (iterateR A cfg ev r iters i q s).1 := by
  have hc := iterateR_cases A cfg ev r iters i q s
  generalize (iterateR A cfg ev r iters i q s).1 = s' at hc ⊢
  generalize (iterateR A cfg ev r iters i q s).2 = o at hc
  cases hc with
  | evalError => exact h
  | gbestError c t e _ hg => exact noNan_congr (noNan_recordEval h c) rfl rfl rfl
  | recorded c t g s' o _ hg hs =>
    exact noNan_congr (noNan_recordBest (noNan_recordEval h c) (callGbest_from hg)) hs.pbestCost
      hs.bestCost hs.costHistory

theorem noNan_optimizeR (A : Arith n d K) (cfg : Config n d K)
    (ev : Nat → Mat n d K → Except Err (Costs n K)) (iters : Nat) (nproc : Option Nat)
    (env : Nat → Draw n d K) (s : Opt n d K) (h : NoNan s) :
    NoNan (optimizeR A cfg ev iters nproc env s).1 :=
  optimizeR_inv2 A cfg ev iters nproc env NoNan NoNan
    (fun _ hs => ⟨by simp [startState, prepare], hs.best, hs.hist⟩)
    (fun i q s hs => noNan_iterateR A cfg (ev i) (env i) iters i q s hs)
    (fun _ _ hs => noNan_congr hs rfl rfl rfl)
    (fun _ _ _ hs => noNan_congr hs rfl rfl rfl) s h

/-! ### The exact arithmetic -/

theorem bhReflectiveR_id (b : Bounds d K) (m : Nat) (x : Mat n d K) :
    bhReflectiveR id b m x = bhReflective b m x := by
  induction m generalizing x with
  | zero => rfl
  | succ m ih => unfold bhReflectiveR bhReflective; rw [ih]; rfl

theorem bhCallR_id (st : String) (mem : Option (Mat n d K)) (b : Bounds d K) (r : BHDraw d K)
    (x : Mat n d K) : bhCallR id st mem b r x = bhCall st mem b r x := by
  unfold bhCallR bhCall
  rw [bhReflectiveR_id]
  rfl

theorem roundX_id (x : XR K) : roundX id x = x := by cases x <;> rfl

theorem ftolDeltaR_id (a b c : XR K) : ftolDeltaR id a b c = ftolDelta a b c := by
  unfold ftolDeltaR ftolDelta
  simp only [roundX_id]

theorem computeVelocityR_id (s : Swarm n d K) (c : Option (Clamp d K)) (st : String)
    (mem : Option (Mat n d K)) (b : Option (Bounds d K)) (r1 r2 : Mat n d K) :
    computeVelocityR id s c st mem b r1 r2 = computeVelocity s c st mem b r1 r2 := rfl

theorem callPositionR_exact (cfg : Config n d K) (r : Draw n d K) (mem : Option (Mat n d K))
    (s : Swarm n d K) :
    callPositionR (Arith.exact cfg) cfg r mem s = callPosition cfg r mem s := by
  have h : computePositionR (Arith.exact cfg).fl s cfg.bounds cfg.bhStrategy mem r.bh =
      computePosition s cfg.bounds cfg.bhStrategy mem r.bh := by
    unfold computePositionR computePosition
    simp only [Arith.exact, bhCallR_id]
    rfl
  unfold callPositionR callPosition
  rw [h]
  cases cfg.kind <;> rfl

theorem moveSwarmR_exact (cfg : Config n d K) (r : Draw n d K) (iters i : Nat) (s : Opt n d K) :
    moveSwarmR (Arith.exact cfg) cfg r iters i s = moveSwarm cfg r iters i s := by
  unfold moveSwarmR moveSwarm
  simp only [callPositionR_exact]
  rfl

theorem iterateR_exact (cfg : Config n d K) (ev : Mat n d K → Except Err (Costs n K))
    (r : Draw n d K) (iters i : Nat) (q : List Bool) (s : Opt n d K) :
    iterateR (Arith.exact cfg) cfg ev r iters i q s = iterate cfg ev r iters i q s := by
  unfold iterateR iterate
  have h : (Arith.exact cfg).fl = id := rfl
  simp only [moveSwarmR_exact, h, ftolDeltaR_id]
  rfl

theorem loopR_exact (cfg : Config n d K) (ev : Nat → Mat n d K → Except Err (Costs n K))
    (env : Nat → Draw n d K) (iters m i : Nat) (q : List Bool) (s : Opt n d K) :
    loopR (Arith.exact cfg) cfg ev env iters m i q s = loop cfg ev env iters m i q s := by
  induction m generalizing i q s with
  | zero => rfl
  | succ m ih =>
    unfold loopR loop
    rw [iterateR_exact]
    split <;> simp_all

end PySwarms
