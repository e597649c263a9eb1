import Verif.Lemmas.Interrupt
import Verif.Props.Bounds
import Verif.Props.Reset
import Verif.Props.Outcome
import Verif.Props.Best

/-! # C98: interrupting a run anywhere -/

set_option linter.unusedSectionVars false

namespace PySwarms

variable {n d : Nat} {K : Type} [Field K] [LinearOrder K] [Transc K] [FloorRing K]

/-! ## Specification -/

/-- The event is an interrupted call. -/
def Event.isCut : Event n d K → Bool
  | .call _ => false
  | .cut _ _ => true

/-- The event is an interrupted `reset`. -/
def Event.isCutReset : Event n d K → Bool
  | .cut (.reset _) _ => true
  | _ => false

/-- `s` is an optimizer object after construction and any history of completed and interrupted
calls. -/
def ReachableCut (cfg : Config n d K) (s : Opt n d K) : Prop :=
  ∃ r1 r2 s0 es, construct cfg r1 r2 = .ok s0 ∧ s = runEvents cfg s0 es

/-- The same with every random value in its documented range. -/
def ReachableCutLegal (cfg : Config n d K) (s : Opt n d K) : Prop :=
  ∃ r1 r2 s0 es, r1.Legal ∧ r2.Legal ∧ (∀ e ∈ es, e.op.Legal) ∧ construct cfg r1 r2 = .ok s0 ∧
    s = runEvents cfg s0 es

/-! ## Lifting -/

/-- Every state of an object after a history with interrupts has an invariant of the assignments. -/
theorem reachableCut_inv (cfg : Config n d K) (I : Opt n d K → Prop)
    (h0 : ∀ r sw t a b p, resetSwarm cfg r = .ok sw →
      I { swarm := sw, top := t, bhMem := a, vhMem := b, openPools := p })
    (hclear : ∀ s, I s → I { s with costHistory := [] } ∧ I { s with meanPbestHistory := [] } ∧
      I { s with meanNeighborHistory := [] } ∧ I { s with posHistory := [] } ∧
      I { s with velocityHistory := [] })
    (hop : ∀ ev iters nproc env s, I s → ∀ x ∈ optimizeStates cfg ev iters nproc env s, I x)
    (s : Opt n d K) (hs : ReachableCut cfg s) : I s := by
  obtain ⟨r1, r2, s0, es, hc, rfl⟩ := hs
  obtain ⟨sw, hsw, rfl⟩ := construct_ok cfg r1 r2 s0 hc
  refine runEvents_inv cfg I (fun _ => True) ?_ es (fun _ _ => trivial) _
    (h0 r2 sw {} none none 0 hsw)
  intro s e _ hs
  cases e.op with
  | optimize ev iters nproc env => exact hop ev iters nproc env s hs
  | reset r =>
    exact resetStates_inv cfg r I (fun s h => (hclear s h).1) (fun s h => (hclear s h).2.1)
      (fun s h => (hclear s h).2.2.1) (fun s h => (hclear s h).2.2.2.1)
      (fun s h => (hclear s h).2.2.2.2) (fun s sw' _ hsw' => h0 r sw' _ _ _ _ hsw') s hs

/-- The same for legal random values; `hop` may use that whether `reset` succeeds depends only on
the configuration. -/
theorem reachableCutLegal_inv (cfg : Config n d K) (I : Opt n d K → Prop)
    (h0 : ∀ r sw t a b p, r.Legal → resetSwarm cfg r = .ok sw →
      I { swarm := sw, top := t, bhMem := a, vhMem := b, openPools := p })
    (hclear : ∀ s, I s → I { s with costHistory := [] } ∧ I { s with meanPbestHistory := [] } ∧
      I { s with meanNeighborHistory := [] } ∧ I { s with posHistory := [] } ∧
      I { s with velocityHistory := [] })
    (hop : ∀ ev iters nproc env, (∀ i, (env i).Legal) → ∀ s, I s →
      ∀ x ∈ optimizeStates cfg ev iters nproc env s, I x)
    (s : Opt n d K) (hs : ReachableCutLegal cfg s) : I s := by
  obtain ⟨r1, r2, s0, es, hr1, hr2, hes, hc, rfl⟩ := hs
  obtain ⟨sw, hsw, rfl⟩ := construct_ok cfg r1 r2 s0 hc
  refine runEvents_inv cfg I (fun e => e.op.Legal) ?_ es hes _
    (h0 r2 sw {} none none 0 hr2 hsw)
  intro s e he hs
  cases hop' : e.op with
  | optimize ev iters nproc env =>
    rw [hop'] at he
    exact hop ev iters nproc env he s hs
  | reset r =>
    rw [hop'] at he
    exact resetStates_inv cfg r I (fun s h => (hclear s h).1) (fun s h => (hclear s h).2.1)
      (fun s h => (hclear s h).2.2.1) (fun s h => (hclear s h).2.2.2.1)
      (fun s h => (hclear s h).2.2.2.2) (fun s sw' _ hsw' => h0 r sw' _ _ _ _ he hsw') s hs

/-! ## The interruption points -/

/-- C98 (the interruption points).  The states listed for a call start with the one in which it is
called, end with the one that the completed call leaves behind, and each arises from the one before
by assigning a single attribute: nothing that an interrupt could expose is skipped. -/
theorem C98_points (cfg : Config n d K) (s : Opt n d K) (op : Op n d K) :
    (opStates cfg s op).head? = some s ∧ (opStates cfg s op).getLast? = some (stepOp cfg s op) ∧
      List.IsChain Store (opStates cfg s op) := by
  obtain ⟨l, h1, h2⟩ := opStates_steps cfg s op
  rw [h1]
  exact ⟨rfl, h2.isChain.2, h2.isChain.1⟩

/-! ## Bounds and clamp -/

section
variable [IsStrictOrderedRing K]

/-- C98 (bounds): interrupts anywhere, any number of times, cannot bring a particle out of the
bounds (compare C21). -/
theorem C98_bounds (cfg : Config n d K) (b : Bounds d K) (hk : cfg.kind ≠ .binary)
    (hcb : cfg.bounds = some b) (hb : ProperBounds b)
    (hinit : cfg.initPos.isSome ∨ cfg.center = fun _ => 1) (s : Opt n d K)
    (hs : ReachableCutLegal cfg s) :
    InBox b s.swarm.position ∧ InBox b s.swarm.pbestPos ∧ (∀ e ∈ s.evals, InBox b e.1) ∧
      ∀ x ∈ s.posHistory, InBox b x := by
  have := reachableCutLegal_inv cfg (AllInside b)
    (fun r sw t a c p hr hsw => by
      have := allInside_fresh hk hcb hb r hr hinit sw hsw
      exact ⟨this.1, this.2, by simp, by simp⟩)
    (fun s ⟨h1, h2, h3, h4⟩ => ⟨⟨h1, h2, h3, h4⟩, ⟨h1, h2, h3, h4⟩, ⟨h1, h2, h3, h4⟩,
      ⟨h1, h2, h3, by simp⟩, ⟨h1, h2, h3, h4⟩⟩) ?_ s hs
  · exact ⟨this.position, this.pbest, this.evals, this.history⟩
  intro ev iters nproc env henv s hs
  refine optimizeStates_inv cfg ev iters nproc env (AllInside b) (BoxInv b)
    (fun s x y z ⟨h1, h2, h3, h4⟩ => ⟨h1, h2, h3, h4⟩) (fun s hs => boxInv_start hk nproc s hs)
    (fun s hs => hs.1) ?_
    (fun i q s hs => boxInv_iterate hk hcb hb (ev i) (henv i) iters i q s hs) s hs
  intro i q s hs
  have hmemb : ∀ (s : Opt n d K) c, AllInside b s → AllInside b (recordEval c s) := by
    rintro s c ⟨h1, h2, h3, h4⟩
    refine ⟨h1, fun i j => ?_, ?_, h4⟩
    · rcases recordEval_pbestPos_or c s i with h | h
      · rw [h]; exact h2 i j
      · rw [h]; exact h1 i j
    · intro e he
      simp only [recordEval, List.mem_append, List.mem_singleton] at he
      rcases he with he | rfl
      · exact h3 e he
      · exact h1
  refine iterateStates_inv cfg (ev i) (env i) iters i q (AllInside b) (BoxInv b) (BoxInv b)
    (BoxInv b) ?_ ?_ ?_ ?_ s hs
  · rintro s c ⟨h, h5⟩ -
    have hr := hmemb s c h
    refine ⟨?_, hr, h5⟩
    intro x hx
    simp only [evalStates, List.mem_cons, List.not_mem_nil, or_false] at hx
    rcases hx with rfl | rfl | rfl
    · exact ⟨h.position, h.pbest, hr.evals, h.history⟩
    · exact ⟨h.position, hr.pbest, hr.evals, h.history⟩
    · exact hr
  · rintro s t ⟨⟨h1, h2, h3, h4⟩, -⟩; exact ⟨h1, h2, h3, h4⟩
  · rintro s t g ⟨⟨h1, h2, h3, h4⟩, h5⟩ -
    have h4' : ∀ x ∈ s.posHistory ++ [s.swarm.position], InBox b x := by
      intro x hx
      rw [List.mem_append, List.mem_singleton] at hx
      rcases hx with hx | rfl
      · exact h4 x hx
      · exact h1
    refine ⟨?_, ⟨h1, h2, h3, h4'⟩, h5⟩
    intro x hx
    simp only [bestStates, List.mem_cons, List.not_mem_nil, or_false] at hx
    rcases hx with rfl | rfl | rfl | rfl | rfl | rfl | rfl <;>
      first
      | exact ⟨h1, h2, h3, h4⟩
      | exact ⟨h1, h2, h3, h4'⟩
  · rintro s ⟨⟨h1, h2, h3, h4⟩, m, h5, h6⟩ x hx
    obtain ⟨o, -, rfl | ⟨vm, y, -, rfl | ⟨v, -, rfl | ⟨bm, z, hz, rfl | ⟨p, rfl, rfl⟩⟩⟩⟩⟩ :=
      moveStates_cases cfg (env i) iters i s x hx
    · exact ⟨h1, h2, h3, h4⟩
    · exact ⟨h1, h2, h3, h4⟩
    · exact ⟨h1, h2, h3, h4⟩
    · exact ⟨h1, h2, h3, h4⟩
    · refine ⟨?_, h2, h3, h4⟩
      have hpos : callPosition cfg (env i) s.bhMem { s.swarm with options := o, velocity := v } =
          bhCall cfg.bhStrategy (some m) b (env i).bh (fun i j => s.swarm.position i j + v i j) := by
        unfold callPosition computePosition
        rw [hcb, h5]
        cases hkk : cfg.kind <;> first | rfl | exact absurd hkk hk
      rw [hpos] at hz
      exact bhCall_inBox hb h6 (henv i).2.2.1 hz

/-- C98 (clamp): nor can they bring a velocity out of the clamp (compare C22). -/
theorem C98_clamp (cfg : Config n d K) (c : Clamp d K) (hcc : cfg.clamp = some c)
    (hc : ∀ j, c.1 j ≤ c.2 j) (hst : cfg.vhStrategy ≠ "zero") (s : Opt n d K)
    (hs : ReachableCutLegal cfg s) :
    (∀ i j, c.1 j ≤ s.swarm.velocity i j ∧ s.swarm.velocity i j ≤ c.2 j) ∧
      ∀ v ∈ s.velocityHistory, ∀ i j, c.1 j ≤ v i j ∧ v i j ≤ c.2 j := by
  have := reachableCutLegal_inv cfg (ClampInv c)
    (fun r sw t a b p hr hsw => ⟨clampInv_fresh hcc hc r hr sw hsw, by simp⟩)
    (fun s ⟨h1, h2⟩ => ⟨⟨h1, h2⟩, ⟨h1, h2⟩, ⟨h1, h2⟩, ⟨h1, h2⟩, ⟨h1, by simp⟩⟩) ?_ s hs
  · exact ⟨this.velocity, this.history⟩
  intro ev iters nproc env _ s hs
  refine optimizeStates_inv cfg ev iters nproc env (ClampInv c)
    (fun s => ClampInv c s ∧ s.vhMem.isSome) (fun s x y z ⟨h1, h2⟩ => ⟨h1, h2⟩)
    (fun s ⟨h1, h2⟩ => ⟨⟨h1, h2⟩, rfl⟩) (fun s hs => hs.1) ?_
    (fun i q s hs => clampInv_iterate hcc hc hst (ev i) (env i) iters i q s hs) s hs
  intro i q s hs
  refine iterateStates_inv cfg (ev i) (env i) iters i q (ClampInv c)
    (fun s => ClampInv c s ∧ s.vhMem.isSome) (fun s => ClampInv c s ∧ s.vhMem.isSome)
    (fun s => ClampInv c s ∧ s.vhMem.isSome) ?_ ?_ ?_ ?_ s hs
  · rintro s c' ⟨⟨h1, h2⟩, h3⟩ -
    refine ⟨?_, ⟨h1, h2⟩, h3⟩
    intro x hx
    simp only [evalStates, List.mem_cons, List.not_mem_nil, or_false] at hx
    rcases hx with rfl | rfl | rfl <;> exact ⟨h1, h2⟩
  · rintro s t ⟨⟨h1, h2⟩, -⟩; exact ⟨h1, h2⟩
  · rintro s t g ⟨⟨h1, h2⟩, h3⟩ -
    have h2' : ∀ v ∈ s.velocityHistory ++ [s.swarm.velocity], Within c v := by
      intro v hv
      rw [List.mem_append, List.mem_singleton] at hv
      rcases hv with hv | rfl
      · exact h2 v hv
      · exact h1
    refine ⟨?_, ⟨h1, h2'⟩, h3⟩
    intro x hx
    simp only [bestStates, List.mem_cons, List.not_mem_nil, or_false] at hx
    rcases hx with rfl | rfl | rfl | rfl | rfl | rfl | rfl <;>
      first
      | exact ⟨h1, h2⟩
      | exact ⟨h1, h2'⟩
  · rintro s ⟨⟨h1, h2⟩, h3⟩ x hx
    obtain ⟨m, hm⟩ := Option.isSome_iff_exists.1 h3
    have hvel : ∀ (o : Opts K) vm v, computeVelocity { s.swarm with options := o } cfg.clamp
        cfg.vhStrategy s.vhMem (velBounds cfg) (env i).r1 (env i).r2 = (vm, .ok v) →
        Within c v := by
      intro o vm v h
      obtain ⟨_, _, _, _, _, _, h⟩ := computeVelocity_ok h
      rw [hcc, hm] at h
      exact vhCall_within hst hc h
    obtain ⟨o, -, rfl | ⟨vm, y, hy, rfl | ⟨v, rfl, rfl | ⟨bm, z, hz, rfl | ⟨p, rfl, rfl⟩⟩⟩⟩⟩ :=
      moveStates_cases cfg (env i) iters i s x hx
    · exact ⟨h1, h2⟩
    · exact ⟨h1, h2⟩
    · exact ⟨hvel o vm v hy, h2⟩
    · exact ⟨hvel o vm v hy, h2⟩
    · exact ⟨hvel o vm v hy, h2⟩

/-! ## Bests -/

/-- What holds of the bests at every interruption point. -/
structure SoundBests (cfg : Config n d K) (s : Opt n d K) : Prop where
  nan : NoNan s
  keys : s.swarm.options.map Prod.fst = cfg.options.map Prod.fst
  unset : s.swarm.bestPos = .empty → s.swarm.bestCost = none
  pbest : ∀ i, XR.lt (s.swarm.pbestCost i) XR.pinf = true → ∃ e ∈ s.evals,
    e.1 i = s.swarm.pbestPos i ∧
      (e.2 i = s.swarm.pbestCost i ∨ XR.lt (e.2 i) (s.swarm.pbestCost i) = true)

theorem soundBests_evalStates {cfg : Config n d K} {s : Opt n d K} (h : SoundBests cfg s)
    (c : Costs n K) : ∀ x ∈ evalStates c s, SoundBests cfg x := by
  obtain ⟨⟨h1, h2, h3⟩, h4, h5, h6⟩ := h
  have hold : ∀ i, XR.lt (s.swarm.pbestCost i) XR.pinf = true →
      ∃ e ∈ s.evals ++ [(s.swarm.position, c)], e.1 i = s.swarm.pbestPos i ∧
        (e.2 i = s.swarm.pbestCost i ∨ XR.lt (e.2 i) (s.swarm.pbestCost i) = true) := by
    intro i hi
    obtain ⟨e, he, h⟩ := h6 i hi
    exact ⟨e, List.mem_append_left _ he, h⟩
  intro x hx
  simp only [evalStates, List.mem_cons, List.not_mem_nil, or_false] at hx
  rcases hx with rfl | rfl | rfl
  · exact ⟨⟨h1, h2, h3⟩, h4, h5, hold⟩
  · refine ⟨⟨h1, h2, h3⟩, h4, h5, ?_⟩
    intro i hi
    simp only [computePbest_pos]
    by_cases hl : XR.lt (c i) (s.swarm.pbestCost i) = true
    · refine ⟨_, List.mem_append_right _ (List.mem_singleton_self _), ?_, Or.inr hl⟩
      simp [hl]
    · obtain ⟨e, he, ha, hb⟩ := hold i hi
      exact ⟨e, he, by simp [hl, ha], hb⟩
  · refine ⟨noNan_recordEval ⟨h1, h2, h3⟩ c, h4, h5, ?_⟩
    intro i hi
    simp only [computePbest_pos, computePbest_cost] at hi ⊢
    by_cases hl : XR.lt (c i) (s.swarm.pbestCost i) = true
    · refine ⟨_, List.mem_append_right _ (List.mem_singleton_self _), ?_, Or.inl ?_⟩ <;> simp [hl]
    · simp only [hl] at hi
      obtain ⟨e, he, ha, hb⟩ := hold i hi
      exact ⟨e, he, by simp [hl, ha], by simpa [hl] using hb⟩

theorem soundBests_bestStates {cfg : Config n d K} {s : Opt n d K} (h : SoundBests cfg s)
    {g : GBest n d K} (hg : GbestFrom s.swarm g) :
    ∀ x ∈ bestStates g s, SoundBests cfg x := by
  obtain ⟨hn, h4, h5, h6⟩ := h
  have hb : g.2.getD XR.pinf ≠ XR.nan := by
    cases hg with
    | prev => exact hn.best
    | single i => exact hn.pb i
    | rows bn i => exact hn.pb (bn i)
  have hu : g.1 = .empty → g.2 = none := by
    cases hg with
    | prev => exact h5
    | single i => intro h; cases h
    | rows bn i => intro h; cases h
  have hu1 : g.1 = .empty → s.swarm.bestCost = none := by
    cases hg with
    | prev => exact h5
    | single i => intro h; cases h
    | rows bn i => intro h; cases h
  have hh : ∀ c ∈ s.costHistory ++ [g.2.getD XR.pinf], c ≠ XR.nan := by
    intro c hc
    rw [List.mem_append, List.mem_singleton] at hc
    rcases hc with hc | rfl
    · exact hn.hist c hc
    · exact hb
  intro x hx
  simp only [bestStates, List.mem_cons, List.not_mem_nil, or_false] at hx
  rcases hx with rfl | rfl | rfl | rfl | rfl | rfl | rfl
  · exact ⟨⟨hn.pb, hn.best, hn.hist⟩, h4, hu1, h6⟩
  · exact ⟨⟨hn.pb, hb, hn.hist⟩, h4, hu, h6⟩
  all_goals exact ⟨⟨hn.pb, hb, hh⟩, h4, hu, h6⟩

theorem soundBests_moveStates {cfg : Config n d K} {s : Opt n d K} (h : SoundBests cfg s)
    (r : Draw n d K) (iters i : Nat) : ∀ x ∈ moveStates cfg r iters i s, SoundBests cfg x := by
  obtain ⟨⟨h1, h2, h3⟩, h4, h5, h6⟩ := h
  intro x hx
  obtain ⟨o, ho, rfl | ⟨vm, y, hy, rfl | ⟨v, rfl, rfl | ⟨bm, z, hz, rfl | ⟨p, rfl, rfl⟩⟩⟩⟩⟩ :=
    moveStates_cases cfg r iters i s x hx
  all_goals exact ⟨⟨h1, h2, h3⟩, callOptions_keys h4 ho, h5, h6⟩

theorem Steps.mem_or {s s' : Opt n d K} {l : List (Opt n d K)} (h : Steps s l s') :
    s' = s ∨ s' ∈ l := by
  have := List.mem_of_getLast? h.isChain.2
  rwa [List.mem_cons] at this

theorem soundBests_iterateStates (cfg : Config n d K) (ev : Mat n d K → Except Err (Costs n K))
    (r : Draw n d K) (iters i : Nat) (q : List Bool) (s : Opt n d K) (hs : SoundBests cfg s) :
    ∀ x ∈ iterateStates cfg ev r iters i q s, SoundBests cfg x := by
  have hmem : ∀ {s s' : Opt n d K} {l : List (Opt n d K)}, Steps s l s' → SoundBests cfg s →
      (∀ x ∈ l, SoundBests cfg x) → SoundBests cfg s' := by
    intro s s' l h hs hl
    rcases h.mem_or with rfl | h
    · exact hs
    · exact hl _ h
  have htop : ∀ (s : Opt n d K) t, SoundBests cfg s → SoundBests cfg { s with top := t } :=
    fun s t ⟨⟨h1, h2, h3⟩, h4, h5, h6⟩ => ⟨⟨h1, h2, h3⟩, h4, h5, h6⟩
  refine iterateStates_inv cfg ev r iters i q (SoundBests cfg) (SoundBests cfg) (SoundBests cfg)
    (SoundBests cfg) ?_ htop ?_ (fun s hs => soundBests_moveStates hs r iters i) s hs
  · intro s c hs _
    exact ⟨soundBests_evalStates hs c,
      hmem (evalStates_steps c s) hs (soundBests_evalStates hs c)⟩
  · intro s t g hs hg
    have h1 := soundBests_bestStates (htop s t hs) (g := g) (by
      have := callGbest_from hg
      cases this with
      | prev => exact .prev
      | single i => exact .single i
      | rows bn i => exact .rows bn i)
    exact ⟨h1, hmem (bestStates_steps t g s) (htop s t hs) h1⟩

theorem soundBests_optimizeStates (cfg : Config n d K)
    (ev : Nat → Mat n d K → Except Err (Costs n K)) (iters : Nat) (nproc : Option Nat)
    (env : Nat → Draw n d K) (s : Opt n d K) (hs : SoundBests cfg s) :
    ∀ x ∈ optimizeStates cfg ev iters nproc env s, SoundBests cfg x := by
  refine optimizeStates_inv cfg ev iters nproc env (SoundBests cfg) (SoundBests cfg)
    (fun s a b c ⟨⟨h1, h2, h3⟩, h4, h5, h6⟩ => ⟨⟨h1, h2, h3⟩, h4, h5, h6⟩) ?_ (fun s hs => hs)
    (fun i q s hs => soundBests_iterateStates cfg (ev i) (env i) iters i q s hs) ?_ s hs
  · rintro s ⟨⟨h1, h2, h3⟩, h4, h5, h6⟩
    refine ⟨⟨fun i => by simp [startState, prepare], h2, h3⟩, h4, h5, fun i hi => ?_⟩
    simp [startState, prepare, XR.not_pinf_lt] at hi
  · intro i q s hs
    rcases (iterateStates_steps cfg (ev i) (env i) iters i q s).mem_or with h | h
    · rw [h]; exact hs
    · exact soundBests_iterateStates cfg (ev i) (env i) iters i q s hs _ h

theorem soundBests_reachableCut {cfg : Config n d K} {s : Opt n d K} (hs : ReachableCut cfg s) :
    SoundBests cfg s := by
  refine reachableCut_inv cfg (SoundBests cfg) ?_ ?_
    (fun ev iters nproc env s hs => soundBests_optimizeStates cfg ev iters nproc env s hs) s hs
  · intro r sw t a b p hsw
    have := fresh_reachable_init cfg r sw hsw
    refine ⟨⟨?_, ?_, by simp⟩, ?_, ?_, ?_⟩
    · intro i; simp [this.1]
    · simp [Swarm.bestCostVal, this.2.1]
    · simp [this.2.2.2.2]
    · intro _; exact this.2.1
    · intro i hi; simp [this.1, XR.not_pinf_lt] at hi
  · rintro s ⟨⟨h1, h2, h3⟩, h4, h5, h6⟩
    exact ⟨⟨⟨h1, h2, by simp⟩, h4, h5, h6⟩, ⟨⟨h1, h2, h3⟩, h4, h5, h6⟩, ⟨⟨h1, h2, h3⟩, h4, h5, h6⟩,
      ⟨⟨h1, h2, h3⟩, h4, h5, h6⟩, ⟨⟨h1, h2, h3⟩, h4, h5, h6⟩⟩

/-- C98 (personal bests): at every interruption point of every history, every personal best cost
below `+inf` belongs to a personal best position that the particle has been evaluated at, with
exactly this cost or – if the interrupt hit between the two assignments – a smaller one.  No best is
ever `nan`. -/
theorem C98_personal_bests (cfg : Config n d K) (s : Opt n d K) (hs : ReachableCut cfg s) :
    (∀ i, XR.lt (s.swarm.pbestCost i) XR.pinf = true → ∃ e ∈ s.evals,
      e.1 i = s.swarm.pbestPos i ∧
        (e.2 i = s.swarm.pbestCost i ∨ XR.lt (e.2 i) (s.swarm.pbestCost i) = true)) ∧
    (∀ i, s.swarm.pbestCost i ≠ XR.nan) ∧ s.swarm.bestCostVal ≠ XR.nan ∧
      ∀ c ∈ s.costHistory, c ≠ XR.nan :=
  let h := soundBests_reachableCut hs
  ⟨h.pbest, h.nan.pb, h.nan.best, h.nan.hist⟩

/-- C98 (usable): after any history of interrupted calls a working configuration still works: the
next call returns (compare C58). -/
theorem C98_returns (hn : 0 < n) (cfg : Config n d K)
    (hv : VelocityWorks cfg) (hb : BoundaryWorks cfg) (hoh : cfg.ohStrategy = [])
    (hkeys : ∀ key ∈ ["c1", "c2", "w"], ∃ v, (key, v) ∈ cfg.options) (s : Opt n d K)
    (hs : ReachableCut cfg s) (ev : Nat → Mat n d K → Except Err (Costs n K)) (iters : Nat)
    (hit : 1 ≤ iters) (nproc : Option Nat) (hp : nproc ≠ some 0) (env : Nat → Draw n d K)
    (hev : ∀ i x, ∃ c, ev i x = .ok c ∧ (cfg.kind.isStar → ∃ a, XR.lt (c a) XR.pinf = true))
    (ht : ∀ i, TopologyWorks cfg (env i).oracle) :
    ∃ v, (optimize cfg ev iters nproc env s).2 = .ok v :=
  let h := soundBests_reachableCut hs
  optimize_returns hn cfg hv hb hoh hkeys s h.keys h.unset ev iters hit nproc hp env hev ht

/-! ## The Star topology -/

/-- What holds of the best of a Star optimizer at every interruption point. -/
structure SoundStar (s : Opt n d K) : Prop where
  pair : ∀ c, s.swarm.bestCost = some c → ∃ e ∈ s.evals, ∃ i,
    s.swarm.bestPos = .single (e.1 i) ∧ (e.2 i = c ∨ XR.lt (e.2 i) c = true)
  above : ∀ h ∈ s.costHistory, XR.lt h s.swarm.bestCostVal = false
  sorted : s.costHistory.Pairwise fun a b => XR.lt a b = false

theorem soundStar_evalStates {s : Opt n d K} (h : SoundStar s)
    (c : Costs n K) : ∀ x ∈ evalStates c s, SoundStar x := by
  obtain ⟨h1, h2, h3⟩ := h
  have h1' : ∀ c', s.swarm.bestCost = some c' → ∃ e ∈ s.evals ++ [(s.swarm.position, c)], ∃ i,
      s.swarm.bestPos = .single (e.1 i) ∧ (e.2 i = c' ∨ XR.lt (e.2 i) c' = true) := by
    intro c' hc'
    obtain ⟨e, he, h⟩ := h1 c' hc'
    exact ⟨e, List.mem_append_left _ he, h⟩
  intro x hx
  simp only [evalStates, List.mem_cons, List.not_mem_nil, or_false] at hx
  rcases hx with rfl | rfl | rfl <;> exact ⟨h1', h2, h3⟩

theorem soundStar_bestStates (hn : 0 < n) {cfg : Config n d K} {s : Opt n d K} (hk : cfg.kind.isStar)
    (hb : SoundBests cfg s) (h : SoundStar s) {o : Oracle n d K} {t : TopState n} {g : GBest n d K}
    (hg : callGbest cfg o s.top s.swarm = (t, .ok g)) :
    ∀ x ∈ bestStates g { s with top := t }, SoundStar x := by
  obtain ⟨h1, h2, h3⟩ := h
  rw [callGbest_star cfg hk] at hg
  obtain ⟨t', k, -, -, -, ⟨hlt, heq⟩ | ⟨hge, heq⟩⟩ := starGbest_spec hn s.top s.swarm hb.nan.pb
  · rw [heq] at hg
    cases hg
    have hfin : XR.lt (s.swarm.pbestCost k) XR.pinf = true := by
      rw [XR.lt_pinf_iff]
      refine ⟨hb.nan.pb k, fun hp => ?_⟩
      rw [hp, XR.not_pinf_lt] at hlt
      cases hlt
    obtain ⟨e, he, ha, hc⟩ := hb.pbest k hfin
    have hold : ∀ c, s.swarm.bestCost = some c → ∃ e ∈ s.evals, ∃ i,
        (BestPos.single (s.swarm.pbestPos k) : BestPos n d K) = .single (e.1 i) ∧
          (e.2 i = c ∨ XR.lt (e.2 i) c = true) := by
      intro c hc'
      have hlt' : XR.lt (s.swarm.pbestCost k) c = true := by
        simpa [Swarm.bestCostVal, hc'] using hlt
      refine ⟨e, he, k, by rw [ha], Or.inr ?_⟩
      rcases hc with hc | hc
      · rw [hc]; exact hlt'
      · exact XR.lt_trans hc hlt'
    have hnew : ∀ c, some (s.swarm.pbestCost k) = some c → ∃ e ∈ s.evals, ∃ i,
        (BestPos.single (s.swarm.pbestPos k) : BestPos n d K) = .single (e.1 i) ∧
          (e.2 i = c ∨ XR.lt (e.2 i) c = true) := by
      intro c hc'
      cases hc'
      exact ⟨e, he, k, by rw [ha], hc⟩
    have habove : ∀ x ∈ s.costHistory, XR.lt x (s.swarm.pbestCost k) = false := by
      intro x hx
      by_contra hcon
      have hcon : XR.lt x (s.swarm.pbestCost k) = true := by simpa using hcon
      have := XR.lt_trans hcon hlt
      rw [h2 x hx] at this
      cases this
    have habove' : ∀ x ∈ s.costHistory ++ [s.swarm.pbestCost k],
        XR.lt x (s.swarm.pbestCost k) = false := by
      intro x hx
      rw [List.mem_append, List.mem_singleton] at hx
      rcases hx with hx | rfl
      · exact habove x hx
      · exact XR.lt_irrefl _
    have hsorted : (s.costHistory ++ [s.swarm.pbestCost k]).Pairwise
        fun a b => XR.lt a b = false := by
      rw [List.pairwise_append]
      exact ⟨h3, by simp, fun a ha b hb => by rw [List.mem_singleton] at hb; subst hb; exact habove a ha⟩
    intro x hx
    simp only [bestStates, List.mem_cons, List.not_mem_nil, or_false] at hx
    rcases hx with rfl | rfl | rfl | rfl | rfl | rfl | rfl
    · exact ⟨hold, h2, h3⟩
    · exact ⟨hnew, habove, h3⟩
    all_goals exact ⟨hnew, habove', hsorted⟩
  · rw [heq] at hg
    cases hg
    have habove' : ∀ x ∈ s.costHistory ++ [s.swarm.bestCostVal],
        XR.lt x s.swarm.bestCostVal = false := by
      intro x hx
      rw [List.mem_append, List.mem_singleton] at hx
      rcases hx with hx | rfl
      · exact h2 x hx
      · exact XR.lt_irrefl _
    have hsorted : (s.costHistory ++ [s.swarm.bestCostVal]).Pairwise
        fun a b => XR.lt a b = false := by
      rw [List.pairwise_append]
      exact ⟨h3, by simp, fun a ha b hb => by rw [List.mem_singleton] at hb; subst hb; exact h2 a ha⟩
    intro x hx
    simp only [bestStates, List.mem_cons, List.not_mem_nil, or_false] at hx
    rcases hx with rfl | rfl | rfl | rfl | rfl | rfl | rfl
    · exact ⟨h1, h2, h3⟩
    · exact ⟨h1, h2, h3⟩
    all_goals exact ⟨h1, habove', hsorted⟩

theorem soundStar_iterateStates (hn : 0 < n) (cfg : Config n d K) (hk : cfg.kind.isStar)
    (ev : Mat n d K → Except Err (Costs n K)) (r : Draw n d K) (iters i : Nat) (q : List Bool)
    (s : Opt n d K) (hb : SoundBests cfg s) (hs : SoundStar s) :
    ∀ x ∈ iterateStates cfg ev r iters i q s, SoundStar x := by
  have hmem : ∀ {I : Opt n d K → Prop} {s s' : Opt n d K} {l : List (Opt n d K)}, Steps s l s' →
      I s → (∀ x ∈ l, I x) → I s' := by
    intro I s s' l h hs hl
    rcases h.mem_or with rfl | h
    · exact hs
    · exact hl _ h
  have htop : ∀ (s : Opt n d K) t, SoundStar s → SoundStar { s with top := t } :=
    fun s t ⟨h1, h2, h3⟩ => ⟨h1, h2, h3⟩
  refine iterateStates_inv cfg ev r iters i q SoundStar (fun s => SoundBests cfg s ∧ SoundStar s)
    (fun s => SoundBests cfg s ∧ SoundStar s) SoundStar ?_ (fun s t h => htop s t h.2) ?_ ?_ s
    ⟨hb, hs⟩
  · rintro s c ⟨hb, hs⟩ -
    exact ⟨soundStar_evalStates hs c,
      hmem (evalStates_steps c s) hb (soundBests_evalStates hb c),
      hmem (evalStates_steps c s) hs (soundStar_evalStates hs c)⟩
  · rintro s t g ⟨hb, hs⟩ hg
    have h1 := soundStar_bestStates hn hk hb hs hg
    exact ⟨h1, hmem (bestStates_steps t g s) (htop s t hs) h1⟩
  · rintro s ⟨h1, h2, h3⟩ x hx
    obtain ⟨o, vm, v, bm, p, rfl⟩ := moveStates_frame cfg r iters i s x hx
    exact ⟨h1, h2, h3⟩

theorem soundStar_reachableCut (hn : 0 < n) {cfg : Config n d K} (hk : cfg.kind.isStar)
    {s : Opt n d K} (hs : ReachableCut cfg s) : SoundBests cfg s ∧ SoundStar s := by
  refine ⟨soundBests_reachableCut hs, ?_⟩
  refine (reachableCut_inv cfg (fun s => SoundBests cfg s ∧ SoundStar s) ?_ ?_ ?_ s hs).2
  · intro r sw t a b p hsw
    have := fresh_reachable_init cfg r sw hsw
    refine ⟨⟨⟨?_, ?_, by simp⟩, ?_, ?_, ?_⟩, ?_, by simp, by simp⟩
    · intro i; simp [this.1]
    · simp [Swarm.bestCostVal, this.2.1]
    · simp [this.2.2.2.2]
    · intro _; exact this.2.1
    · intro i hi; simp [this.1, XR.not_pinf_lt] at hi
    · simp [this.2.1]
  · rintro s ⟨⟨⟨h1, h2, h3⟩, h4, h5, h6⟩, h7, h8, h9⟩
    exact ⟨⟨⟨⟨h1, h2, by simp⟩, h4, h5, h6⟩, h7, by simp, by simp⟩,
      ⟨⟨⟨h1, h2, h3⟩, h4, h5, h6⟩, h7, h8, h9⟩, ⟨⟨⟨h1, h2, h3⟩, h4, h5, h6⟩, h7, h8, h9⟩,
      ⟨⟨⟨h1, h2, h3⟩, h4, h5, h6⟩, h7, h8, h9⟩, ⟨⟨⟨h1, h2, h3⟩, h4, h5, h6⟩, h7, h8, h9⟩⟩
  · rintro ev iters nproc env s hs x hx
    refine optimizeStates_inv cfg ev iters nproc env (fun s => SoundBests cfg s ∧ SoundStar s)
      (fun s => SoundBests cfg s ∧ SoundStar s) ?_ ?_ (fun s hs => hs) ?_ ?_ s hs x hx
    · rintro s a b c ⟨⟨⟨h1, h2, h3⟩, h4, h5, h6⟩, h7, h8, h9⟩
      exact ⟨⟨⟨h1, h2, h3⟩, h4, h5, h6⟩, h7, h8, h9⟩
    · rintro s ⟨⟨⟨h1, h2, h3⟩, h4, h5, h6⟩, h7, h8, h9⟩
      refine ⟨⟨⟨fun i => by simp [startState, prepare], h2, h3⟩, h4, h5, fun i hi => ?_⟩, h7, h8, h9⟩
      simp [startState, prepare, XR.not_pinf_lt] at hi
    · rintro i q s ⟨hb, hs⟩ x hx
      exact ⟨soundBests_iterateStates cfg (ev i) (env i) iters i q s hb x hx,
        soundStar_iterateStates hn cfg hk (ev i) (env i) iters i q s hb hs x hx⟩
    · rintro i q s ⟨hb, hs⟩
      rcases (iterateStates_steps cfg (ev i) (env i) iters i q s).mem_or with h | h
      · rw [h]; exact ⟨hb, hs⟩
      · exact ⟨soundBests_iterateStates cfg (ev i) (env i) iters i q s hb _ h,
          soundStar_iterateStates hn cfg hk (ev i) (env i) iters i q s hb hs _ h⟩

/-- C98 (the best of a Star optimizer): at every interruption point of every history, `best_pos` is
an evaluated position whose cost is `best_cost` or smaller, and `cost_history` never increases
(compare C04, C06). -/
theorem C98_star (hn : 0 < n) (cfg : Config n d K) (hk : cfg.kind.isStar) (s : Opt n d K)
    (hs : ReachableCut cfg s) :
    (∀ c, s.swarm.bestCost = some c → ∃ e ∈ s.evals, ∃ i,
      s.swarm.bestPos = .single (e.1 i) ∧ (e.2 i = c ∨ XR.lt (e.2 i) c = true)) ∧
    (∀ h ∈ s.costHistory, XR.lt h s.swarm.bestCostVal = false) ∧
    s.costHistory.Pairwise fun a b => XR.lt a b = false :=
  let h := (soundStar_reachableCut hn hk hs).2
  ⟨h.pair, h.above, h.sorted⟩

/-- The best of a Star optimizer during a call that starts with the best cost `b0`. -/
def SinceStart (b0 : XR K) (e0 : List (Mat n d K × Costs n K)) (s : Opt n d K) : Prop :=
  ∃ E, s.evals = e0 ++ E ∧
    (∀ i, s.swarm.pbestCost i ≠ XR.nan ∧
      (s.swarm.pbestCost i = XR.pinf ∨ s.swarm.pbestCost i ∈ b0 :: allCosts E)) ∧
    IsMinOf s.swarm.bestCostVal (b0 :: allCosts E)

theorem sinceStart_record (hn : 0 < n) {b0 : XR K} {e0 : List (Mat n d K × Costs n K)}
    {s : Opt n d K} (h : SinceStart b0 e0 s) (c : Costs n K) {t t' : TopState n} {g : GBest n d K}
    (hg : starGbest t (recordEval c s).swarm = (t', .ok g)) :
    SinceStart b0 e0 (recordBest t' g (recordEval c s)) := by
  obtain ⟨E, hE, hpb, hmin0⟩ := h
  have hL : b0 :: allCosts (E ++ [(s.swarm.position, c)]) =
      (b0 :: allCosts E) ++ allCosts [(s.swarm.position, c)] := by
    rw [allCosts_append]; rfl
  generalize hl : b0 :: allCosts E = L at hpb hmin0 hL
  have hc : ∀ x ∈ allCosts [(s.swarm.position, c)], ∃ i, x = c i := by
    intro x hx
    rw [mem_allCosts] at hx
    obtain ⟨e, he, i, hi⟩ := hx
    rw [List.mem_singleton] at he
    subst he
    exact ⟨i, hi.symm⟩
  have hc' : ∀ i, c i ∈ allCosts [(s.swarm.position, c)] := by
    intro i
    rw [mem_allCosts]
    exact ⟨_, List.mem_singleton_self _, i, rfl⟩
  have hpb' : ∀ i, (recordEval c s).swarm.pbestCost i ≠ XR.nan ∧
      ((recordEval c s).swarm.pbestCost i = XR.pinf ∨
        (recordEval c s).swarm.pbestCost i ∈ L ++ allCosts [(s.swarm.position, c)]) := by
    intro i
    rw [recordEval_pbestCost]
    by_cases hlt : XR.lt (c i) (s.swarm.pbestCost i) = true
    · simp only [hlt, if_true]
      exact ⟨XR.left_ne_nan hlt, Or.inr (List.mem_append_right _ (hc' i))⟩
    · simp only [hlt]
      refine ⟨(hpb i).1, ?_⟩
      rcases (hpb i).2 with h | h
      · exact Or.inl h
      · exact Or.inr (List.mem_append_left _ h)
  have hnb := recordEval_not_better c s (fun i => (hpb i).1)
  obtain ⟨t'', k, -, hmin, -, hcase⟩ := starGbest_spec hn t (recordEval c s).swarm
    (fun i => (hpb' i).1)
  have hval : (recordEval c s).swarm.bestCostVal = s.swarm.bestCostVal := rfl
  refine ⟨E ++ [(s.swarm.position, c)], ?_, ?_, ?_⟩
  · show s.evals ++ [(s.swarm.position, c)] = _
    rw [hE, List.append_assoc]
  · intro i
    rw [hL]
    exact hpb' i
  · rw [hL]
    rcases hcase with ⟨hlt, heq⟩ | ⟨hlt, heq⟩
    · rw [heq] at hg
      cases hg
      show IsMinOf ((recordEval c s).swarm.pbestCost k) _
      rw [hval] at hlt
      refine ⟨(hpb' k).1, (hpb' k).2, ?_⟩
      intro x hx
      rw [List.mem_append] at hx
      rcases hx with hx | hx
      · by_cases hxn : x = XR.nan
        · rw [hxn]; rfl
        · exact XR.lt_asymm (XR.lt_of_lt_of_not_lt hlt hxn (hmin0.2.2 x hx))
      · obtain ⟨i, rfl⟩ := hc x hx
        exact XR.not_lt_trans (hpb' i).1 (hnb i) (hmin i)
    · rw [heq] at hg
      cases hg
      show IsMinOf (recordEval c s).swarm.bestCostVal _
      rw [hval] at hlt ⊢
      refine ⟨hmin0.1, ?_, ?_⟩
      · rcases hmin0.2.1 with h1 | h1
        · exact Or.inl h1
        · exact Or.inr (List.mem_append_left _ h1)
      · intro x hx
        rw [List.mem_append] at hx
        rcases hx with hx | hx
        · exact hmin0.2.2 x hx
        · obtain ⟨i, rfl⟩ := hc x hx
          exact XR.not_lt_trans (hpb' k).1 (XR.not_lt_trans (hpb' i).1 (hnb i) (hmin i)) hlt

theorem sinceStart_congr {b0 : XR K} {e0 : List (Mat n d K × Costs n K)} {s s' : Opt n d K}
    (h : SinceStart b0 e0 s) (h1 : s'.evals = s.evals)
    (h2 : s'.swarm.pbestCost = s.swarm.pbestCost) (h3 : s'.swarm.bestCost = s.swarm.bestCost) :
    SinceStart b0 e0 s' := by
  obtain ⟨E, a, b, c⟩ := h
  have hv : s'.swarm.bestCostVal = s.swarm.bestCostVal := by simp [Swarm.bestCostVal, h3]
  exact ⟨E, by rw [h1, a], by rw [h2]; exact b, by rw [hv]; exact c⟩

theorem sinceStart_iterate (hn : 0 < n) (cfg : Config n d K) (hk : cfg.kind.isStar)
    (ev : Mat n d K → Except Err (Costs n K)) (r : Draw n d K) (iters i : Nat) (q : List Bool)
    {b0 : XR K} {e0 : List (Mat n d K × Costs n K)} (s : Opt n d K) (h : SinceStart b0 e0 s) :
    SinceStart b0 e0 (iterate cfg ev r iters i q s).1 := by
  have hc := iterate_cases cfg ev r iters i q s
  generalize (iterate cfg ev r iters i q s).1 = s' at hc ⊢
  generalize (iterate cfg ev r iters i q s).2 = o at hc
  cases hc with
  | evalError => exact h
  | gbestError c t e _ hg =>
    exfalso
    rw [callGbest_star cfg hk] at hg
    obtain ⟨t'', k, _, _, _, hcase⟩ := starGbest_spec hn (recordEval c s).top
      (recordEval c s).swarm (fun i => by
        obtain ⟨E, -, hpb, -⟩ := h
        rw [recordEval_pbestCost]
        split
        · next hl => exact XR.left_ne_nan hl
        · exact (hpb i).1)
    rcases hcase with ⟨_, heq⟩ | ⟨_, heq⟩ <;> (rw [heq] at hg; cases hg)
  | stop c t g _ hg =>
    rw [callGbest_star cfg hk] at hg
    exact sinceStart_record hn h c hg
  | moveError c t g s' e _ hg _ hm =>
    rw [callGbest_star cfg hk] at hg
    have hf := moveSwarm_frame cfg r iters i (recordBest t g (recordEval c s))
    rw [hm] at hf
    obtain ⟨_, h2, _, h4, _, _, _, _, _, _, _, h12, _⟩ := hf
    exact sinceStart_congr (sinceStart_record hn h c hg) h12 h2 h4
  | moved c t g s' _ hg _ hm =>
    rw [callGbest_star cfg hk] at hg
    have hf := moveSwarm_frame cfg r iters i (recordBest t g (recordEval c s))
    rw [hm] at hf
    obtain ⟨_, h2, _, h4, _, _, _, _, _, _, _, h12, _⟩ := hf
    exact sinceStart_congr (sinceStart_record hn h c hg) h12 h2 h4

/-- C98 (the next call of a Star optimizer): after any history of interrupted calls, a call that
returns gives the smaller of the best cost it started with and the smallest cost `m` it evaluated,
together with a position that this call evaluated to `m` (or, if it evaluated nothing below `+inf`,
an old personal best position). -/
theorem C98_next_call (hn : 0 < n) (cfg : Config n d K) (hk : cfg.kind.isStar) (s : Opt n d K)
    (hs : ReachableCut cfg s) (ev : Nat → Mat n d K → Except Err (Costs n K)) (iters : Nat)
    (nproc : Option Nat) (env : Nat → Draw n d K) (s' : Opt n d K) (c : XR K) (p : Vec d K)
    (ho : optimize cfg ev iters nproc env s = (s', .ok (c, p))) :
    ∃ E m, s'.evals = s.evals ++ E ∧ LogOf ev E ∧ IsMinOf m (allCosts E) ∧
      ((XR.lt m XR.pinf = true ∧ ∃ e ∈ E, ∃ i, e.1 i = p ∧ e.2 i = m) ∨
       (m = XR.pinf ∧ ∃ i, p = s.swarm.pbestPos i)) ∧
      IsMinOf c (s.swarm.bestCostVal :: allCosts E) := by
  have hnp : nproc ≠ some 0 := by
    rintro rfl
    unfold optimize at ho
    simp at ho
  obtain ⟨E, hE, hlog, -, hpb⟩ := C01_personal_best cfg ev env iters nproc hnp s
  have hb := soundBests_reachableCut hs
  have hstart : SinceStart s.swarm.bestCostVal s.evals (startState cfg nproc s) := by
    refine ⟨[], by simp [startState, prepare], fun i => by simp [startState, prepare], ?_⟩
    refine ⟨hb.nan.best, Or.inr (List.mem_cons_self), ?_⟩
    intro y hy
    simp only [allCosts, List.flatMap_nil, List.mem_singleton] at hy
    subst hy
    exact XR.lt_irrefl _
  have hinv := loop_inv cfg ev env iters (SinceStart s.swarm.bestCostVal s.evals)
    (fun i q x hx => sinceStart_iterate hn cfg hk (ev i) (env i) iters i q x hx) iters 0 [] _ hstart
  obtain ⟨s1, h1, hs', hbc, k, hkk, hp⟩ := optimize_ok cfg ev iters nproc env s s' c p ho
  rw [h1] at hinv
  obtain ⟨E', hE', -, hcmin⟩ := hinv
  rw [ho] at hE hpb
  simp only at hE hpb hE' hcmin
  have e1 : s'.swarm = s1.swarm := by rw [hs']
  have e2 : s'.evals = s1.evals := by rw [hs']
  obtain rfl : E = E' := List.append_cancel_left (by rw [← hE, ← hE', e2])
  have hcv : s1.swarm.bestCostVal = c := by simp [Swarm.bestCostVal, hbc]
  rw [hcv] at hcmin
  have hk2 : npArgmin s'.swarm.pbestCost = some k := by rw [e1]; exact hkk
  have hnn : ∀ i, s'.swarm.pbestCost i ≠ XR.nan := fun i => isPersonalBest_ne_nan (hpb i)
  rw [npArgmin_eq_some_iff _ hnn] at hk2
  have hmin : IsMinOf (s'.swarm.pbestCost k) (allCosts E) := by
    refine ⟨hnn k, ?_, ?_⟩
    · by_cases hinf : s'.swarm.pbestCost k = XR.pinf
      · left; exact hinf
      · right
        obtain ⟨e, he, _, h2⟩ := isPersonalBest_mem (hpb k) hinf
        exact (mem_allCosts _ _).2 ⟨e, he, k, h2⟩
    · intro x hx
      obtain ⟨e, he, i, rfl⟩ := (mem_allCosts _ _).1 hx
      refine XR.not_lt_trans (hnn i) ?_ (hk2.1 i)
      exact isPersonalBest_not_below (hpb i) (e.1 i, e.2 i)
        (List.mem_map.2 ⟨e, he, rfl⟩)
  refine ⟨E, s'.swarm.pbestCost k, hE, hlog, hmin, ?_, hcmin⟩
  rcases hpb k with ⟨_, h, h2⟩ | hfb
  · right; exact ⟨h, k, by rw [hp, ← e1]; exact h2⟩
  · left
    have hlt : XR.lt (s'.swarm.pbestCost k) XR.pinf = true := by
      obtain ⟨_, _, _, hlt, _⟩ := hfb; exact hlt
    refine ⟨hlt, ?_⟩
    obtain ⟨e, he, h1, h2⟩ := isPersonalBest_mem (hpb k) ((XR.lt_pinf_iff _).1 hlt).2
    exact ⟨e, he, k, by rw [h1, hp, e1], h2⟩

/-! ## Histories -/

/-- The five history lists have lengths that decrease in the order in which they are written and
differ by at most `k`. -/
def Aligned (k : Nat) (s : Opt n d K) : Prop :=
  s.velocityHistory.length ≤ s.posHistory.length ∧
  s.posHistory.length ≤ s.meanNeighborHistory.length ∧
  s.meanNeighborHistory.length ≤ s.meanPbestHistory.length ∧
  s.meanPbestHistory.length ≤ s.costHistory.length ∧
  s.costHistory.length ≤ s.velocityHistory.length + k

theorem Aligned.mono {k : Nat} {s : Opt n d K} (h : Aligned k s) : Aligned (k + 1) s := by
  obtain ⟨h1, h2, h3, h4, h5⟩ := h
  exact ⟨h1, h2, h3, h4, by omega⟩

theorem aligned_recordBest {k : Nat} {s : Opt n d K} (h : Aligned k s) (t : TopState n)
    (g : GBest n d K) : Aligned k (recordBest t g s) := by
  obtain ⟨h1, h2, h3, h4, h5⟩ := h
  unfold Aligned
  simp only [recordBest, Opt.populateHistory, List.length_append, List.length_singleton]
  omega

theorem aligned_iterate (cfg : Config n d K) (ev : Mat n d K → Except Err (Costs n K))
    (r : Draw n d K) (iters i : Nat) (q : List Bool) {k : Nat} (s : Opt n d K) (h : Aligned k s) :
    Aligned k (iterate cfg ev r iters i q s).1 := by
  have hrec : ∀ c, Aligned k (recordEval c s) := fun c => h
  have hmove : ∀ (s : Opt n d K), Aligned k s → Aligned k (moveSwarm cfg r iters i s).1 := by
    intro s hs
    rcases (moveStates_steps cfg r iters i s).mem_or with h | h
    · rw [h]; exact hs
    · obtain ⟨o, vm, v, bm, p, hx⟩ := moveStates_frame cfg r iters i s _ h
      rw [hx]; exact hs
  have hc := iterate_cases cfg ev r iters i q s
  generalize (iterate cfg ev r iters i q s).1 = s' at hc ⊢
  generalize (iterate cfg ev r iters i q s).2 = o at hc
  cases hc with
  | evalError => exact h
  | gbestError c t e _ hg => exact hrec c
  | stop c t g _ hg => exact aligned_recordBest (hrec c) t g
  | moveError c t g s' e _ hg _ hm =>
    have := hmove _ (aligned_recordBest (hrec c) t g)
    rw [hm] at this
    exact this
  | moved c t g s' _ hg _ hm =>
    have := hmove _ (aligned_recordBest (hrec c) t g)
    rw [hm] at this
    exact this

theorem aligned_iterateStates (cfg : Config n d K) (ev : Mat n d K → Except Err (Costs n K))
    (r : Draw n d K) (iters i : Nat) (q : List Bool) {k : Nat} (s : Opt n d K) (h : Aligned k s) :
    ∀ x ∈ iterateStates cfg ev r iters i q s, Aligned (k + 1) x := by
  refine iterateStates_inv cfg ev r iters i q (Aligned (k + 1)) (Aligned k) (Aligned k) (Aligned k)
    ?_ (fun s t h => h.mono) ?_ ?_ s h
  · intro s c h _
    refine ⟨?_, h⟩
    intro x hx
    simp only [evalStates, List.mem_cons, List.not_mem_nil, or_false] at hx
    rcases hx with rfl | rfl | rfl <;> exact h.mono
  · intro s t g h _
    refine ⟨?_, aligned_recordBest h t g⟩
    obtain ⟨h1, h2, h3, h4, h5⟩ := h
    intro x hx
    simp only [bestStates, List.mem_cons, List.not_mem_nil, or_false] at hx
    rcases hx with rfl | rfl | rfl | rfl | rfl | rfl | rfl <;>
      (unfold Aligned; simp only [List.length_append, List.length_singleton]; omega)
  · intro s h x hx
    obtain ⟨o, vm, v, bm, p, rfl⟩ := moveStates_frame cfg r iters i s x hx
    exact h.mono

theorem aligned_stepEvent (cfg : Config n d K) {k : Nat} (s : Opt n d K) (e : Event n d K)
    (he : e.isCutReset = false) (h : Aligned k s) :
    Aligned (k + if e.isCut then 1 else 0) (stepEvent cfg s e) := by
  have hop : ∀ op, Aligned k (stepOp cfg s op) := by
    intro op
    cases op with
    | optimize ev iters nproc env =>
      exact optimize_inv2 cfg ev iters nproc env (Aligned k) (Aligned k) (fun s h => h)
        (fun i q s h => aligned_iterate cfg (ev i) (env i) iters i q s h) (fun s c h => h)
        (fun s a b h => h) s h
    | reset r =>
      show Aligned k (reset cfg r s).1
      unfold reset
      cases resetSwarm cfg r <;> exact ⟨by simp, by simp, by simp, by simp, by simp⟩
  cases e with
  | call op => exact hop op
  | cut op j =>
    cases op with
    | reset r => cases he
    | optimize ev iters nproc env =>
      have := stepEvent_mem cfg s (.cut (.optimize ev iters nproc env) j)
      have hall : ∀ x ∈ optimizeStates cfg ev iters nproc env s, Aligned (k + 1) x := by
        exact optimizeStates_inv_of cfg ev iters nproc env (Aligned (k + 1)) (Aligned k)
          (fun s a b c h => h) (fun s h => h.mono)
          (fun i q s h => aligned_iterateStates cfg (ev i) (env i) iters i q s h)
          (fun i q s h => aligned_iterate cfg (ev i) (env i) iters i q s h) s h.mono h
      exact hall _ this

/-- C98 (histories): as long as no `reset` is interrupted, the five history lists differ in length
by at most the number of interrupted calls, and a list that is written earlier in the iteration is
never shorter than one written later. -/
theorem C98_histories (cfg : Config n d K) (r1 r2 : InitDraw n d K) (s0 : Opt n d K)
    (hc : construct cfg r1 r2 = .ok s0) (es : List (Event n d K))
    (hes : ∀ e ∈ es, e.isCutReset = false) :
    Aligned (es.countP Event.isCut) (runEvents cfg s0 es) := by
  obtain ⟨sw, hsw, rfl⟩ := construct_ok cfg r1 r2 s0 hc
  have key : ∀ (es : List (Event n d K)) k (s : Opt n d K), (∀ e ∈ es, e.isCutReset = false) →
      Aligned k s → Aligned (k + es.countP Event.isCut) (runEvents cfg s es) := by
    intro es
    induction es with
    | nil => intro k s _ h; exact h
    | cons e es ih =>
      intro k s hes h
      have h1 := ih _ _ (fun e' he => hes e' (List.mem_cons_of_mem _ he))
        (aligned_stepEvent cfg s e (hes e List.mem_cons_self) h)
      have : k + (if e.isCut then 1 else 0) + es.countP Event.isCut =
          k + (e :: es).countP Event.isCut := by
        rw [List.countP_cons]; omega
      rw [this] at h1
      exact h1
  have := key es 0 { swarm := sw } hes
    ⟨by simp, by simp, by simp, by simp, by simp⟩
  rw [Nat.zero_add] at this
  exact this

/-- C98 (recorded positions): at every interruption point the recorded positions are positions at
which the objective was evaluated, in the same order. -/
theorem C98_recorded (cfg : Config n d K) (s : Opt n d K) (hs : ReachableCut cfg s) :
    s.posHistory.Sublist (s.evals.map Prod.fst) := by
  refine reachableCut_inv cfg (fun s => s.posHistory.Sublist (s.evals.map Prod.fst)) ?_ ?_ ?_ s hs
  · intro r sw t a b p _; exact List.nil_sublist _
  · intro s h; exact ⟨h, h, h, List.nil_sublist _, h⟩
  intro ev iters nproc env s hs
  have hI : ∀ i q (s : Opt n d K), s.posHistory.Sublist (s.evals.map Prod.fst) →
      ∀ x ∈ iterateStates cfg (ev i) (env i) iters i q s,
        x.posHistory.Sublist (x.evals.map Prod.fst) := by
    intro i q s hs
    refine iterateStates_inv cfg (ev i) (env i) iters i q
      (fun s => s.posHistory.Sublist (s.evals.map Prod.fst))
      (fun s => s.posHistory.Sublist (s.evals.map Prod.fst))
      (fun s => (s.posHistory ++ [s.swarm.position]).Sublist (s.evals.map Prod.fst))
      (fun s => s.posHistory.Sublist (s.evals.map Prod.fst)) ?_ ?_ ?_ ?_ s hs
    · intro s c h _
      have hr : (s.posHistory ++ [s.swarm.position]).Sublist
          ((s.evals ++ [(s.swarm.position, c)]).map Prod.fst) := by
        rw [List.map_append]
        exact h.append (List.Sublist.refl _)
      refine ⟨?_, hr⟩
      intro x hx
      simp only [evalStates, List.mem_cons, List.not_mem_nil, or_false] at hx
      rcases hx with rfl | rfl | rfl <;> exact (List.sublist_append_left _ _).trans hr
    · intro s t h; exact (List.sublist_append_left _ _).trans h
    · intro s t g h _
      refine ⟨?_, h⟩
      intro x hx
      simp only [bestStates, List.mem_cons, List.not_mem_nil, or_false] at hx
      rcases hx with rfl | rfl | rfl | rfl | rfl | rfl | rfl <;>
        first
        | exact h
        | exact (List.sublist_append_left _ _).trans h
    · intro s h x hx
      obtain ⟨o, vm, v, bm, p, rfl⟩ := moveStates_frame cfg (env i) iters i s x hx
      exact h
  refine optimizeStates_inv cfg ev iters nproc env _
    (fun s => s.posHistory.Sublist (s.evals.map Prod.fst)) (fun s a b c h => h) (fun s h => h)
    (fun s h => h) hI ?_ s hs
  intro i q s h
  rcases (iterateStates_steps cfg (ev i) (env i) iters i q s).mem_or with h' | h'
  · rw [h']; exact h
  · exact hI i q s h _ h'

/-- C98 (reset repairs): whatever was interrupted before, also another `reset`, a completed `reset`
makes the object behave like a new one (Star and dynamic topologies, as in C29). -/
theorem C98_reset (cfg : Config n d K) (hk : cfg.kind.top.isStatic = false ∨ cfg.kind.isStar)
    (s new : Opt n d K) (es : List (Event n d K)) (r0 r : InitDraw n d K)
    (hnew : construct cfg r0 r = .ok new) (ops : List (Op n d K)) :
    SameVisible (runOps cfg (runEvents cfg s (es ++ [.call (.reset r)])) ops)
      (runOps cfg new ops) ∧
    ∀ ev iters nproc env,
      (optimize cfg ev iters nproc env
        (runOps cfg (runEvents cfg s (es ++ [.call (.reset r)])) ops)).2 =
      (optimize cfg ev iters nproc env (runOps cfg new ops)).2 := by
  have : runEvents cfg s (es ++ [.call (.reset r)]) = (reset cfg r (runEvents cfg s es)).1 := by
    unfold runEvents
    rw [List.foldl_append]
    rfl
  rw [this]
  exact (C29_reset cfg hk _ new r0 r hnew).2 ops

end

/-! ## What an interrupt can break -/

namespace Ex

/-- An objective that ignores the positions: cost `f k` in iteration `k`. -/
def flatCost (n : Nat) (f : Nat → ℚ) : Nat → Mat n 1 ℚ → Except Err (Costs n ℚ) := fun k _ =>
  .ok fun _ => .fin (f k)

/-- A call of `optimize` with the fixed draws. -/
def callOf (ev : Nat → Mat 2 1 ℚ → Except Err (Costs 2 ℚ)) (iters : Nat) : Op 2 1 ℚ :=
  .optimize ev iters none fun _ => draw 2 1

/-- The `GlobalBestPSO` of the examples after a history. -/
def after (es : List (Event 2 1 ℚ)) : Opt 2 1 ℚ :=
  match construct (gcfg 2 1) (init 2 1) (init 2 1) with
  | .ok s => runEvents (gcfg 2 1) s es
  | .error _ => { swarm := ⟨fun _ _ => 0, fun _ _ => 0, [], fun _ _ => 0, fun _ => .nan, .empty, none,
      fun _ => .nan⟩ }

theorem after_reachable (es : List (Event 2 1 ℚ)) : ReachableCut (gcfg 2 1) (after es) := by
  have key : (match construct (gcfg 2 1) (init 2 1) (init 2 1) with
    | .ok _ => true
    | .error _ => false) = true := by decide +kernel
  unfold after
  cases hs : construct (gcfg 2 1) (init 2 1) (init 2 1) with
  | error e => rw [hs] at key; cases key
  | ok s => exact ⟨_, _, s, es, hs, rfl⟩

end Ex

/-- C98 (an evaluation can be lost): a `GlobalBestPSO` interrupted after it evaluated a particle to
cost 0, and before it updated its best, forgets that evaluation: the next call returns 100.
(Without interrupts the returned cost is the smallest ever evaluated, C04, C06.) -/
theorem C98_evaluation_lost : ∃ s p s', ReachableCut (Ex.gcfg 2 1) s ∧
    (∃ e ∈ s.evals, ∃ i, e.2 i = XR.fin 0) ∧
    optimize (Ex.gcfg 2 1) (Ex.flatCost 2 fun _ => 100) 1 none (fun _ => Ex.draw 2 1) s =
      (s', .ok (XR.fin 100, p)) := by
  have key : (match optimize (Ex.gcfg 2 1) (Ex.flatCost 2 fun _ => 100) 1 none (fun _ => Ex.draw 2 1)
      (Ex.after [.cut (Ex.callOf (Ex.sphere 2 1) 1) 7]) with
    | (_, .ok (c, _)) => decide (c = XR.fin 100)
    | _ => false) = true := by decide +kernel
  have key2 : (Ex.after [.cut (Ex.callOf (Ex.sphere 2 1) 1) 7]).evals.any
    (fun e => decide (e.2 0 = XR.fin 0)) = true := by decide +kernel
  rw [List.any_eq_true] at key2
  obtain ⟨e, he, h0⟩ := key2
  have hr := Ex.after_reachable [.cut (Ex.callOf (Ex.sphere 2 1) 1) 7]
  generalize Ex.after [.cut (Ex.callOf (Ex.sphere 2 1) 1) 7] = s at *
  cases ho : optimize (Ex.gcfg 2 1) (Ex.flatCost 2 fun _ => 100) 1 none (fun _ => Ex.draw 2 1) s with
  | mk s' o =>
    rw [ho] at key
    cases o with
    | error e => cases key
    | ok v =>
      obtain ⟨c, p⟩ := v
      have : c = XR.fin 100 := of_decide_eq_true key
      subst this
      exact ⟨s, p, s', hr, ⟨e, he, 0, of_decide_eq_true h0⟩, ho⟩

/-- C98 (the best pair can be torn): `best_pos` is assigned before `best_cost`; an interrupt between
the two leaves a pair that no evaluation produced. -/
theorem C98_torn_pair : ∃ s x c, ReachableCut (Ex.gcfg 2 1) s ∧ s.swarm.bestPos = .single x ∧
    s.swarm.bestCost = some c ∧ ¬ ∃ e ∈ s.evals, ∃ i, e.1 i = x ∧ e.2 i = c := by
  have key : (match (Ex.after [.cut (Ex.callOf (Ex.flatCost 2 fun k => 5 - k) 2) 25]).swarm.bestPos,
      (Ex.after [.cut (Ex.callOf (Ex.flatCost 2 fun k => 5 - k) 2) 25]).swarm.bestCost with
    | .single x, some c => (Ex.after [.cut (Ex.callOf (Ex.flatCost 2 fun k => 5 - k) 2) 25]).evals.all
        fun e => (List.finRange 2).all fun i => decide (¬ (e.1 i 0 = x 0 ∧ e.2 i = c))
    | _, _ => false) = true := by decide +kernel
  have hr := Ex.after_reachable [.cut (Ex.callOf (Ex.flatCost 2 fun k => 5 - k) 2) 25]
  generalize Ex.after [.cut (Ex.callOf (Ex.flatCost 2 fun k => 5 - k) 2) 25] = s at *
  cases hp : s.swarm.bestPos with
  | empty => rw [hp] at key; cases key
  | perParticle _ => rw [hp] at key; cases key
  | single x =>
    cases hc : s.swarm.bestCost with
    | none => rw [hp, hc] at key; cases key
    | some c =>
      rw [hp, hc] at key
      refine ⟨s, x, c, hr, hp, hc, ?_⟩
      rintro ⟨e, he, i, h1, h2⟩
      have := List.all_eq_true.1 (List.all_eq_true.1 key e he) i (List.mem_finRange i)
      exact of_decide_eq_true this ⟨by rw [h1], h2⟩

/-- C98 (the histories can stay misaligned): an interrupt between two of the five `append`s leaves
`cost_history` one entry ahead of `pos_history`, and so does every later completed call. -/
theorem C98_misaligned (ops : List (Op 2 1 ℚ))
    (hops : ∀ op ∈ ops, ∀ r, op ≠ .reset r) : ∃ s, ReachableCut (Ex.gcfg 2 1) s ∧
    (runOps (Ex.gcfg 2 1) s ops).costHistory.length =
      (runOps (Ex.gcfg 2 1) s ops).posHistory.length + 1 := by
  have key : (Ex.after [.cut (Ex.callOf (Ex.sphere 2 1) 1) 13]).costHistory.length =
    (Ex.after [.cut (Ex.callOf (Ex.sphere 2 1) 1) 13]).posHistory.length + 1 := by decide +kernel
  refine ⟨_, Ex.after_reachable [.cut (Ex.callOf (Ex.sphere 2 1) 1) 13], ?_⟩
  generalize Ex.after [.cut (Ex.callOf (Ex.sphere 2 1) 1) 13] = s at key
  induction ops generalizing s with
  | nil => exact key
  | cons op ops ih =>
    refine ih (fun o ho => hops o (List.mem_cons_of_mem _ ho)) _ ?_
    cases op with
    | reset r => exact absurd rfl (hops _ List.mem_cons_self r)
    | optimize ev iters nproc env =>
      refine optimize_inv2 (Ex.gcfg 2 1) ev iters nproc env
        (fun s => s.costHistory.length = s.posHistory.length + 1)
        (fun s => s.costHistory.length = s.posHistory.length + 1) (fun s h => h) ?_
        (fun s c h => h) (fun s a b h => h) s key
      intro i q s h
      have hmove : ∀ (s : Opt 2 1 ℚ), s.costHistory.length = s.posHistory.length + 1 →
          (moveSwarm (Ex.gcfg 2 1) (env i) iters i s).1.costHistory.length =
          (moveSwarm (Ex.gcfg 2 1) (env i) iters i s).1.posHistory.length + 1 := by
        intro s hs
        rcases (moveStates_steps (Ex.gcfg 2 1) (env i) iters i s).mem_or with h | h
        · rw [h]; exact hs
        · obtain ⟨o, vm, v, bm, p, hx⟩ := moveStates_frame _ _ _ _ s _ h
          rw [hx]; exact hs
      have hrec : ∀ t g (s : Opt 2 1 ℚ), s.costHistory.length = s.posHistory.length + 1 →
          (recordBest t g s).costHistory.length = (recordBest t g s).posHistory.length + 1 := by
        intro t g s hs
        simp only [recordBest, Opt.populateHistory, List.length_append, List.length_singleton]
        omega
      have hc := iterate_cases (Ex.gcfg 2 1) (ev i) (env i) iters i q s
      generalize (iterate (Ex.gcfg 2 1) (ev i) (env i) iters i q s).1 = s' at hc ⊢
      generalize (iterate (Ex.gcfg 2 1) (ev i) (env i) iters i q s).2 = o at hc
      cases hc with
      | evalError => exact h
      | gbestError c t e _ hg => exact h
      | stop c t g _ hg => exact hrec t g (recordEval c s) h
      | moveError c t g s' e _ hg _ hm =>
        have := hmove _ (hrec t g (recordEval c s) h)
        rw [hm] at this
        exact this
      | moved c t g s' _ hg _ hm =>
        have := hmove _ (hrec t g (recordEval c s) h)
        rw [hm] at this
        exact this

/-- C98 (an interrupted reset): `reset` clears the lists one by one before it builds the new swarm;
interrupted after the first two, the object has an empty `cost_history`, its old `pos_history` and
its old swarm, so `C98_histories` needs its hypothesis. -/
theorem C98_cut_reset : ∃ s, ReachableCut (Ex.gcfg 2 1) s ∧ s.costHistory = [] ∧
    s.posHistory.length = 2 ∧ s.evals.length = 2 ∧ s.swarm.bestCost = some (XR.fin 4) := by
  refine ⟨_, Ex.after_reachable [.call (Ex.callOf (Ex.flatCost 2 fun k => 5 - k) 2),
    .cut (.reset (Ex.init 2 1)) 2], ?_, ?_, ?_, ?_⟩
  · exact List.length_eq_zero_iff.1 (by decide +kernel)
  · decide +kernel
  · decide +kernel
  · decide +kernel

/-! ## Non-vacuity -/

namespace Ex

/-- Three events: a call cut in its second iteration, a cut reset and a completed call. -/
def cuts : List (Event 2 1 ℚ) :=
  [.cut (callOf (sphere 2 1) 3) 25, .cut (.reset (init 2 1)) 3, .call (callOf (sphere 2 1) 2)]

-- C98_points: a call of one iteration makes 20 assignments.
example : (opStates (gcfg 2 1) (after []) (callOf (sphere 2 1) 1)).length = 22 := by decide +kernel

-- C98_personal_bests, C98_star, C98_recorded: four evaluations, of which three were recorded.
example : (after cuts).evals.length = 4 ∧ (after cuts).posHistory.length = 3 ∧
    (after cuts).swarm.bestCost = some (XR.fin 0) := by decide +kernel

-- C98_histories: a cut call and a completed one.
example : (∀ e ∈ [Event.cut (callOf (sphere 2 1) 1) 13, .call (callOf (sphere 2 1) 2)],
      e.isCutReset = false) ∧
    (after [.cut (callOf (sphere 2 1) 1) 13, .call (callOf (sphere 2 1) 2)]).costHistory.length = 3 ∧
    (after [.cut (callOf (sphere 2 1) 1) 13, .call (callOf (sphere 2 1) 2)]).posHistory.length = 2 :=
  ⟨by simp [Event.isCutReset, callOf], by decide +kernel, by decide +kernel⟩

-- C98_bounds, C98_clamp: cut in the second iteration, after the velocity has been assigned.
example : ∀ bh ∈ bhStrategies, (match construct (ccfg "invert" bh) cinit cinit with
    | .ok s =>
      let s' := runEvents (ccfg "invert" bh) s [.cut (callOf (sphere 2 1) 4) 34]
      decide (s'.posHistory.length = 2 ∧ s'.swarm.position 0 0 ≠ s.swarm.position 0 0)
    | _ => false) = true := by decide +kernel

-- C98_returns, C98_next_call: the call after the cut one returns.
example : (match optimize (gcfg 2 1) (sphere 2 1) 2 none (fun _ => draw 2 1) (after cuts) with
    | (_, .ok (c, _)) => decide (c = XR.fin 0)
    | _ => false) = true := by decide +kernel

-- C98_reset: a configuration it applies to, and a history that leaves old entries behind.
example : (gcfg 2 1).kind.isStar ∧
    (after [.cut (callOf (sphere 2 1) 1) 13, .call (.reset (init 2 1))]).costHistory.length = 0 :=
  ⟨trivial, by decide +kernel⟩

end Ex

end PySwarms
