import Verif.Lemmas.Star

/-! What `compute_gbest` can return, for every topology. -/

set_option linter.unusedSectionVars false

namespace PySwarms

variable {n d : Nat} {K : Type} [Field K] [LinearOrder K]

/-- The value returned by `compute_gbest` comes from the personal bests or is the previous
best. -/
inductive GbestFrom (s : Swarm n d K) : GBest n d K → Prop
  | prev : GbestFrom s (s.bestPos, s.bestCost)
  | single (i : Fin n) : GbestFrom s (.single (s.pbestPos i), some (s.pbestCost i))
  | rows (bn : Fin n → Fin n) (i : Fin n) :
      GbestFrom s (.perParticle (fun j => s.pbestPos (bn j)), some (s.pbestCost (bn i)))

theorem gatherBest_from {bn : Fin n → Fin n} {s : Swarm n d K} {g : GBest n d K}
    (h : gatherBest bn s = .ok g) : GbestFrom s g := by
  unfold gatherBest at h
  split at h
  · cases h
  · next c hc =>
    cases h
    unfold npMin at hc
    rw [Option.map_eq_some_iff] at hc
    obtain ⟨i, _, rfl⟩ := hc
    exact .rows bn i

theorem nbrBest_from {nbr : Fin n → List (Fin n)} {s : Swarm n d K} {g : GBest n d K}
    (h : nbrBest nbr s = .ok g) : GbestFrom s g := by
  unfold nbrBest at h
  split at h
  · cases h
  · exact gatherBest_from h

theorem starGbest_from {t t' : TopState n} {s : Swarm n d K} {g : GBest n d K}
    (h : starGbest t s = (t', .ok g)) : GbestFrom s g := by
  unfold starGbest at h
  dsimp only at h
  split at h
  · cases h
  · split at h
    · cases h; exact .single _
    · cases h; exact .prev

theorem ringGbest_from {st : Bool} {k p : Nat} {o : Oracle n d K} {t t' : TopState n}
    {s : Swarm n d K} {g : GBest n d K} (h : ringGbest st k p o t s = (t', .ok g)) :
    GbestFrom s g := by
  unfold ringGbest at h
  dsimp only at h
  split at h
  · cases h
  · split at h
    · split at h
      · cases h
      · exact gatherBest_from (Prod.ext_iff.1 h).2
    · split at h
      · cases h
      · exact nbrBest_from (Prod.ext_iff.1 h).2

theorem pyramidGbest_from {st : Bool} {o : Oracle n d K} {t t' : TopState n}
    {s : Swarm n d K} {g : GBest n d K} (h : pyramidGbest st o t s = (t', .ok g)) :
    GbestFrom s g := by
  unfold pyramidGbest at h
  dsimp only at h
  split at h
  · split at h
    · cases h
    · cases h; exact .single _
  · split at h
    · cases h
    · split at h
      · cases h
      · exact nbrBest_from (Prod.ext_iff.1 h).2

theorem randomGbest_from {st : Bool} {k : Nat} {o : Oracle n d K} {t t' : TopState n}
    {s : Swarm n d K} {g : GBest n d K} (h : randomGbest st k o t s = (t', .ok g)) :
    GbestFrom s g := by
  unfold randomGbest at h
  dsimp only at h
  split at h
  · cases h
  · split at h
    · cases h
    · exact nbrBest_from (Prod.ext_iff.1 h).2

theorem computeGbest_from {kind : TopKind} {args : TopArgs} {o : Oracle n d K} {t t' : TopState n}
    {s : Swarm n d K} {g : GBest n d K} (h : computeGbest kind args o t s = (t', .ok g)) :
    GbestFrom s g := by
  unfold computeGbest at h
  split at h
  · exact starGbest_from h
  · split at h
    · exact ringGbest_from h
    · cases h
  · split at h
    · exact ringGbest_from h
    · cases h
  · exact pyramidGbest_from h
  · split at h
    · exact randomGbest_from h
    · cases h

theorem callGbest_from {cfg : Config n d K} {o : Oracle n d K} {t t' : TopState n}
    {s : Swarm n d K} {g : GBest n d K} (h : callGbest cfg o t s = (t', .ok g)) :
    GbestFrom s g := by
  unfold callGbest at h
  split at h <;> exact computeGbest_from h

/-- Invariant: no `nan` among the bests. -/
structure NoNan (s : Opt n d K) : Prop where
  pb : ∀ i, s.swarm.pbestCost i ≠ XR.nan
  best : s.swarm.bestCostVal ≠ XR.nan
  hist : ∀ c ∈ s.costHistory, c ≠ XR.nan

theorem noNan_congr {s s' : Opt n d K} (h : NoNan s)
    (h2 : s'.swarm.pbestCost = s.swarm.pbestCost) (h3 : s'.swarm.bestCost = s.swarm.bestCost)
    (h4 : s'.costHistory = s.costHistory) : NoNan s' := by
  obtain ⟨a, b, c⟩ := h
  refine ⟨by rw [h2]; exact a, ?_, by rw [h4]; exact c⟩
  unfold Swarm.bestCostVal at *; rw [h3]; exact b

theorem noNan_recordEval {s : Opt n d K} (h : NoNan s) (c : Costs n K) : NoNan (recordEval c s) := by
  refine ⟨?_, h.best, h.hist⟩
  intro i
  rw [recordEval_pbestCost]
  split
  · next hl => exact XR.left_ne_nan hl
  · exact h.pb i

theorem noNan_recordBest {s : Opt n d K} (h : NoNan s) {t : TopState n} {g : GBest n d K}
    (hg : GbestFrom s.swarm g) : NoNan (recordBest t g s) := by
  have hb : g.2.getD XR.pinf ≠ XR.nan := by
    cases hg with
    | prev => exact h.best
    | single i => exact h.pb i
    | rows bn i => exact h.pb (bn i)
  refine ⟨h.pb, hb, ?_⟩
  intro c hc
  have : (recordBest t g s).costHistory = s.costHistory ++ [g.2.getD XR.pinf] := rfl
  rw [this, List.mem_append, List.mem_singleton] at hc
  rcases hc with hc | rfl
  · exact h.hist c hc
  · exact hb

variable [Transc K] [FloorRing K]

theorem noNan_iterate (cfg : Config n d K) (ev : Mat n d K → Except Err (Costs n K))
    (r : Draw n d K) (iters i : Nat) (q : List Bool) (s : Opt n d K) (h : NoNan s) :
    NoNan (iterate cfg ev r iters i q s).1 := by
  have hc := iterate_cases cfg ev r iters i q s
  generalize (iterate cfg ev r iters i q s).1 = s' at hc ⊢
  generalize (iterate cfg ev r iters i q s).2 = o at hc
  cases hc with
  | evalError => exact h
  | gbestError c t e _ hg => exact noNan_congr (noNan_recordEval h c) rfl rfl rfl
  | stop c t g _ hg => exact noNan_recordBest (noNan_recordEval h c) (callGbest_from hg)
  | moveError c t g s' e _ hg _ hm =>
    have hf := moveSwarm_frame cfg r iters i (recordBest t g (recordEval c s))
    rw [hm] at hf
    obtain ⟨_, h2, _, h4, _, _, h7, _⟩ := hf
    exact noNan_congr (noNan_recordBest (noNan_recordEval h c) (callGbest_from hg)) h2 h4 h7
  | moved c t g s' _ hg _ hm =>
    have hf := moveSwarm_frame cfg r iters i (recordBest t g (recordEval c s))
    rw [hm] at hf
    obtain ⟨_, h2, _, h4, _, _, h7, _⟩ := hf
    exact noNan_congr (noNan_recordBest (noNan_recordEval h c) (callGbest_from hg)) h2 h4 h7

theorem noNan_optimize (cfg : Config n d K)
    (ev : Nat → Mat n d K → Except Err (Costs n K)) (iters : Nat) (nproc : Option Nat)
    (env : Nat → Draw n d K) (s : Opt n d K) (h : NoNan s) :
    NoNan (optimize cfg ev iters nproc env s).1 :=
  optimize_inv cfg ev iters nproc env NoNan
    (fun _ _ _ _ hs => noNan_congr hs rfl rfl rfl)
    (fun _ hs => ⟨by simp, hs.best, hs.hist⟩)
    (fun i q s hs => noNan_iterate cfg (ev i) (env i) iters i q s hs) s h

theorem noNan_reachable (cfg : Config n d K) (s : Opt n d K) (h : Reachable cfg s) : NoNan s :=
  reachable_inv cfg NoNan
    (fun r sw t a b p hsw => by
      have := fresh_reachable_init cfg r sw hsw
      refine ⟨?_, ?_, by simp⟩
      · intro i; simp [this.1]
      · simp [Swarm.bestCostVal, this.2.1])
    (fun ev iters nproc env s hs => noNan_optimize cfg ev iters nproc env s hs) s h

end PySwarms
