import Verif.Lemmas.Loop
import Verif.Spec

/-! Lemmas about personal bests and Star bests. -/

set_option linter.unusedSectionVars false

namespace PySwarms

variable {n d : Nat} {K : Type} [Field K] [LinearOrder K]

/-! ### Personal bests -/

theorem isPersonalBest_snoc {log : List (Vec d K × XR K)} {old x : Vec d K} {c : XR K}
    (h : IsPersonalBest log old x c) (y : Vec d K) (v : XR K) :
    IsPersonalBest (log ++ [(y, v)]) old (if XR.lt v c then y else x)
      (if XR.lt v c then v else c) := by
  rcases h with ⟨h1, rfl, rfl⟩ | ⟨pre, post, rfl, hc, h1, h2⟩
  · by_cases hv : XR.lt v XR.pinf = true
    · simp only [hv, if_true]
      right
      refine ⟨log, [], by simp, hv, ?_, by simp⟩
      intro e he
      rcases h1 e he with h | h
      · left; exact h
      · right; rw [h]; exact hv
    · simp only [hv]
      left
      refine ⟨?_, by simp, by simp⟩
      intro e he
      simp only [List.mem_append, List.mem_singleton] at he
      rcases he with he | rfl
      · exact h1 e he
      · simp only
        rw [XR.lt_pinf_iff] at hv
        by_cases hn : v = XR.nan
        · left; exact hn
        · right; by_contra hp; exact hv ⟨hn, hp⟩
  · right
    by_cases hv : XR.lt v c = true
    · simp only [hv, if_true]
      refine ⟨pre ++ (x, c) :: post, [], by simp, XR.lt_trans hv hc, ?_, by simp⟩
      intro e he
      simp only [List.mem_append, List.mem_cons] at he
      rcases he with he | rfl | he
      · rcases h1 e he with h | h
        · left; exact h
        · right; exact XR.lt_trans hv h
      · right; exact hv
      · by_cases hn : e.2 = XR.nan
        · left; exact hn
        · right
          rcases h2 e he with h | h
          · exact absurd h hn
          · exact XR.lt_of_lt_of_not_lt hv hn h
    · simp only [hv]
      refine ⟨pre, post ++ [(y, v)], by simp, hc, h1, ?_⟩
      intro e he
      simp only [List.mem_append, List.mem_singleton] at he
      rcases he with he | rfl
      · exact h2 e he
      · right; simpa using hv

theorem isPersonalBest_nil (old : Vec d K) : IsPersonalBest [] old old (XR.pinf : XR K) :=
  Or.inl ⟨fun e he => absurd he (by simp), rfl, rfl⟩

theorem isPersonalBest_ne_nan {log : List (Vec d K × XR K)} {old x : Vec d K} {c : XR K}
    (h : IsPersonalBest log old x c) : c ≠ XR.nan := by
  rcases h with ⟨_, rfl, _⟩ | ⟨_, _, _, h, _⟩
  · simp
  · exact XR.left_ne_nan h

/-- No entry of the log is below the personal best. -/
theorem isPersonalBest_not_below {log : List (Vec d K × XR K)} {old x : Vec d K} {c : XR K}
    (h : IsPersonalBest log old x c) (e : Vec d K × XR K) (he : e ∈ log) :
    XR.lt e.2 c = false := by
  by_cases hn : e.2 = XR.nan
  · rw [hn]; rfl
  rcases h with ⟨h, _, _⟩ | ⟨pre, post, rfl, _, h3, h4⟩
  · rcases h _ he with h' | h'
    · exact absurd h' hn
    · rw [h']; exact XR.not_pinf_lt _
  · rw [List.mem_append, List.mem_cons] at he
    rcases he with hm | hm | hm
    · rcases h3 _ hm with h' | h'
      · exact absurd h' hn
      · exact XR.lt_asymm h'
    · rw [hm]; exact XR.lt_irrefl _
    · rcases h4 _ hm with h' | h'
      · exact absurd h' hn
      · exact h'

theorem isPersonalBest_mem {E : List (Mat n d K × Costs n K)} {old x : Vec d K} {c : XR K}
    {i : Fin n} (h : IsPersonalBest (particleLog E i) old x c) (hc : c ≠ XR.pinf) :
    ∃ e ∈ E, e.1 i = x ∧ e.2 i = c := by
  rcases h with ⟨_, h, _⟩ | ⟨pre, post, h, _⟩
  · exact absurd h hc
  · have hmem : (x, c) ∈ particleLog E i := by rw [h]; simp
    rw [particleLog, List.mem_map] at hmem
    obtain ⟨e, he, heq⟩ := hmem
    exact ⟨e, he, (Prod.ext_iff.1 heq).1, (Prod.ext_iff.1 heq).2⟩

theorem computePbest_pos (s : Swarm n d K) (i : Fin n) :
    (computePbest s).1 i =
      if XR.lt (s.currentCost i) (s.pbestCost i) then s.position i else s.pbestPos i := by
  funext j
  simp only [computePbest]
  by_cases h : XR.lt (s.currentCost i) (s.pbestCost i) = true <;> simp [h]

theorem computePbest_cost (s : Swarm n d K) (i : Fin n) :
    (computePbest s).2 i =
      if XR.lt (s.currentCost i) (s.pbestCost i) then s.currentCost i else s.pbestCost i := by
  simp only [computePbest]
  by_cases h : XR.lt (s.currentCost i) (s.pbestCost i) = true <;> simp [h]

theorem recordEval_pbestPos (c : Costs n K) (s : Opt n d K) (i : Fin n) :
    (recordEval c s).swarm.pbestPos i =
      if XR.lt (c i) (s.swarm.pbestCost i) then s.swarm.position i else s.swarm.pbestPos i := by
  simp only [recordEval]
  exact computePbest_pos _ i

theorem recordEval_pbestCost (c : Costs n K) (s : Opt n d K) (i : Fin n) :
    (recordEval c s).swarm.pbestCost i =
      if XR.lt (c i) (s.swarm.pbestCost i) then c i else s.swarm.pbestCost i := by
  simp only [recordEval]
  exact computePbest_cost _ i

theorem particleLog_append (E F : List (Mat n d K × Costs n K)) (i : Fin n) :
    particleLog (E ++ F) i = particleLog E i ++ particleLog F i := by
  simp [particleLog]

/-- Loop invariant for personal bests: the log has grown by `E`, and every particle has the
personal best of `E`. -/
def PInv (base : List (Mat n d K × Costs n K)) (old : Mat n d K) (s : Opt n d K) : Prop :=
  ∃ E, s.evals = base ++ E ∧
    ∀ i, IsPersonalBest (particleLog E i) (old i) (s.swarm.pbestPos i) (s.swarm.pbestCost i)

theorem pInv_recordEval {base : List (Mat n d K × Costs n K)} {old : Mat n d K} {s : Opt n d K}
    (h : PInv base old s) (c : Costs n K) : PInv base old (recordEval c s) := by
  obtain ⟨E, h1, h2⟩ := h
  refine ⟨E ++ [(s.swarm.position, c)], by simp [recordEval, h1], ?_⟩
  intro i
  rw [recordEval_pbestPos, recordEval_pbestCost, particleLog_append]
  exact isPersonalBest_snoc (h2 i) _ _

theorem pInv_congr {base : List (Mat n d K × Costs n K)} {old : Mat n d K} {s s' : Opt n d K}
    (h : PInv base old s) (h1 : s'.evals = s.evals) (h2 : s'.swarm.pbestPos = s.swarm.pbestPos)
    (h3 : s'.swarm.pbestCost = s.swarm.pbestCost) : PInv base old s' := by
  obtain ⟨E, ha, hb⟩ := h
  exact ⟨E, by rw [h1, ha], by intro i; rw [h2, h3]; exact hb i⟩

variable [Transc K] [FloorRing K]

theorem pInv_iterate {base : List (Mat n d K × Costs n K)} {old : Mat n d K}
    (cfg : Config n d K) (ev : Mat n d K → Except Err (Costs n K)) (r : Draw n d K)
    (iters i : Nat) (q : List Bool) (s : Opt n d K) (h : PInv base old s) :
    PInv base old (iterate cfg ev r iters i q s).1 := by
  have hc := iterate_cases cfg ev r iters i q s
  generalize (iterate cfg ev r iters i q s).1 = s' at hc ⊢
  generalize (iterate cfg ev r iters i q s).2 = o at hc
  cases hc with
  | evalError => exact h
  | gbestError c t e => exact pInv_congr (pInv_recordEval h c) rfl rfl rfl
  | stop c t g => exact pInv_congr (pInv_recordEval h c) rfl rfl rfl
  | moveError c t g s' e _ _ _ hm =>
    have hf := moveSwarm_frame cfg r iters i (recordBest t g (recordEval c s))
    rw [hm] at hf
    exact pInv_congr (pInv_recordEval h c) (by rw [hf.2.2.2.2.2.2.2.2.2.2.2.1]; rfl)
      (by rw [hf.1]; rfl) (by rw [hf.2.1]; rfl)
  | moved c t g s' _ _ _ hm =>
    have hf := moveSwarm_frame cfg r iters i (recordBest t g (recordEval c s))
    rw [hm] at hf
    exact pInv_congr (pInv_recordEval h c) (by rw [hf.2.2.2.2.2.2.2.2.2.2.2.1]; rfl)
      (by rw [hf.1]; rfl) (by rw [hf.2.1]; rfl)

/-- The log written by the loop is the sequence of evaluations of the objective. -/
theorem loop_log (cfg : Config n d K) (ev : Nat → Mat n d K → Except Err (Costs n K))
    (env : Nat → Draw n d K) (iters : Nat) (m i : Nat) (q : List Bool) (s : Opt n d K) :
    ∃ E, (loop cfg ev env iters m i q s).1.evals = s.evals ++ E ∧ E.length ≤ m ∧
      ∀ (k : Nat) (h : k < E.length), ev (i + k) E[k].1 = .ok E[k].2 := by
  induction m generalizing i q s with
  | zero => exact ⟨[], by simp [loop], by simp, by simp⟩
  | succ m ih =>
    have hc := iterate_cases cfg (ev i) (env i) iters i q s
    have one : ∀ c, ev i s.swarm.position = .ok c →
        ∃ E, (s.evals ++ [(s.swarm.position, c)]) = s.evals ++ E ∧ E.length ≤ m + 1 ∧
          ∀ (k : Nat) (h : k < E.length), ev (i + k) E[k].1 = .ok E[k].2 := by
      intro c hcv
      refine ⟨[(s.swarm.position, c)], rfl, by simp, ?_⟩
      intro k hk
      have : k = 0 := by simpa using hk
      subst this; simpa using hcv
    have evs : ∀ c t g s' o, moveSwarm cfg (env i) iters i (recordBest t g (recordEval c s))
        = (s', o) → s'.evals = s.evals ++ [(s.swarm.position, c)] := by
      intro c t g s' o hm
      have hf := moveSwarm_frame cfg (env i) iters i (recordBest t g (recordEval c s))
      rw [hm] at hf
      rw [hf.2.2.2.2.2.2.2.2.2.2.2.1]; rfl
    unfold loop
    generalize hit : iterate cfg (ev i) (env i) iters i q s = res at hc
    obtain ⟨s', o⟩ := res
    simp only at hc ⊢
    cases hc with
    | evalError e h => exact ⟨[], by simp, by simp, by simp⟩
    | gbestError c t e h hg => exact one c h
    | stop c t g h => exact one c h
    | moveError c t g s' e h _ _ hm => rw [evs _ _ _ _ _ hm]; exact one c h
    | moved c t g s' h _ _ hm =>
      simp only
      obtain ⟨E, h1, h2, h3⟩ := ih (i + 1) _ s'
      refine ⟨(s.swarm.position, c) :: E, ?_, by simp; omega, ?_⟩
      · rw [h1, evs _ _ _ _ _ hm]; simp
      · intro k hk
        cases k with
        | zero => simpa using h
        | succ k =>
          have := h3 k (by simpa using hk)
          simpa [Nat.add_assoc, Nat.add_comm, Nat.add_left_comm] using this

end PySwarms
