import Verif.Props.Outcome

/-! # C50: what an exception raised by the objective leaves behind -/

set_option linter.unusedSectionVars false

namespace PySwarms

variable {n d : Nat} {K : Type} [Field K] [LinearOrder K] [Transc K] [FloorRing K]

/-- `s'` is what `s` has become after exactly `t` completed iterations, the first of which is
number `i`: the evaluation log and the five histories have grown by `t` entries, the positions in
the history are those evaluated, the best cost is the last entry of the cost history (the old best
if `t = 0`), and no pool was opened or closed meanwhile. -/
def CompletedFrom (ev : Nat → Mat n d K → Except Err (Costs n K)) (i t : Nat) (s s' : Opt n d K) :
    Prop :=
  ∃ E C M N V, s'.evals = s.evals ++ E ∧ s'.costHistory = s.costHistory ++ C ∧
    s'.meanPbestHistory = s.meanPbestHistory ++ M ∧
    s'.meanNeighborHistory = s.meanNeighborHistory ++ N ∧
    s'.posHistory = s.posHistory ++ E.map Prod.fst ∧
    s'.velocityHistory = s.velocityHistory ++ V ∧
    E.length = t ∧ C.length = t ∧ M.length = t ∧ N.length = t ∧ V.length = t ∧
    (∀ (k : Nat) (h : k < E.length), ev (i + k) E[k].1 = .ok E[k].2) ∧
    (t = 0 → s'.swarm.bestPos = s.swarm.bestPos ∧ s'.swarm.bestCost = s.swarm.bestCost) ∧
    (0 < t → C.getLast? = some s'.swarm.bestCostVal) ∧
    s'.openPools = s.openPools

theorem completedFrom_zero (ev : Nat → Mat n d K → Except Err (Costs n K)) (i : Nat)
    (s : Opt n d K) : CompletedFrom ev i 0 s s :=
  ⟨[], [], [], [], [], by simp⟩

theorem completedFrom_succ {cfg : Config n d K} {ev : Nat → Mat n d K → Except Err (Costs n K)}
    {r : Draw n d K} {iters i t : Nat} {q q' : List Bool} {s s1 s' : Opt n d K}
    (h : iterate cfg (ev i) r iters i q s = (s1, .ok (.continue q')))
    (h1 : CompletedFrom ev (i + 1) t s1 s') : CompletedFrom ev i (t + 1) s s' := by
  have hc := iterate_cases cfg (ev i) r iters i q s
  rw [h] at hc
  simp only at hc
  cases hc with
  | moved c tp g _ he hg hns hm =>
    have hf := moveSwarm_frame cfg r iters i (recordBest tp g (recordEval c s))
    rw [hm] at hf
    obtain ⟨-, -, hb1, hb2, -, -, f1, f2, f3, f4, f5, f6, f7⟩ := hf
    simp only at hb1 hb2 f1 f2 f3 f4 f5 f6 f7
    obtain ⟨E, C, M, N, V, e1, e2, e3, e4, e5, e6, l1, l2, l3, l4, l5, hl, h0, hlast, hpool⟩ := h1
    refine ⟨(s.swarm.position, c) :: E, (recordBest tp g (recordEval c s)).swarm.bestCostVal :: C,
      npMean (recordEval c s).swarm.pbestCost :: M,
      (recordBest tp g (recordEval c s)).swarm.bestCostVal :: N, s.swarm.velocity :: V, ?_, ?_, ?_, ?_, ?_, ?_,
      by simp [l1], by simp [l2], by simp [l3], by simp [l4], by simp [l5], ?_, by simp, ?_, ?_⟩
    · rw [e1, f6]
      simp [recordBest, Opt.populateHistory, recordEval]
    · rw [e2, f1]
      simp [recordBest, Opt.populateHistory, recordEval]
    · rw [e3, f2]
      simp [recordBest, Opt.populateHistory, recordEval]
    · rw [e4, f3]
      simp [recordBest, Opt.populateHistory, recordEval]
    · rw [e5, f4]
      simp [recordBest, Opt.populateHistory, recordEval]
    · rw [e6, f5]
      simp [recordBest, Opt.populateHistory, recordEval]
    · intro k hk
      cases k with
      | zero => simpa using he
      | succ k =>
        have := hl k (by simpa using hk)
        rw [show i + (k + 1) = i + 1 + k by omega]
        simpa using this
    · intro _
      by_cases ht : t = 0
      · have hC : C = [] := List.length_eq_zero_iff.1 (by omega)
        subst hC
        have := (h0 ht).2
        simp only [List.getLast?_singleton, Option.some.injEq, Swarm.bestCostVal]
        rw [this, hb2]
      · have hC : C ≠ [] := by
          intro hC; rw [hC] at l2; simp at l2; omega
        rw [List.getLast?_cons_of_ne_nil hC]
        exact hlast (by omega)
    · rw [hpool, f7]
      rfl

theorem loop_crash (cfg : Config n d K) (ev : Nat → Mat n d K → Except Err (Costs n K))
    (env : Nat → Draw n d K) (iters : Nat) (e : Err) (t : Nat) (m i : Nat) (htm : t < m)
    (q : List Bool) (s : Opt n d K) (hraise : ∀ x, ev (i + t) x = .error e) :
    (∀ ev', (∀ k, i ≤ k → k < i + t → ev' k = ev k) →
      loop cfg ev' env iters m i q s = loop cfg ev env iters m i q s) ∨
    ∃ s1, loop cfg ev env iters m i q s = (s1, .error e) ∧
      loop cfg ev env iters t i q s = (s1, .ok ()) ∧ CompletedFrom ev i t s s1 := by
  induction t generalizing m i q s with
  | zero =>
    right
    obtain ⟨m, rfl⟩ : ∃ m', m = m' + 1 := ⟨m - 1, by omega⟩
    refine ⟨s, ?_, rfl, completedFrom_zero ev i s⟩
    have : iterate cfg (ev i) (env i) iters i q s = (s, .error e) := by
      unfold iterate
      rw [show ev i s.swarm.position = .error e from hraise _]
    rw [loop, this]
  | succ t ih =>
    obtain ⟨m, rfl⟩ : ∃ m', m = m' + 1 := ⟨m - 1, by omega⟩
    rcases ho : iterate cfg (ev i) (env i) iters i q s with ⟨s1, e1 | f⟩
    · left
      intro ev' h'
      rw [loop, loop, h' i (le_refl _) (by omega), ho]
    · cases f with
      | stop =>
        left
        intro ev' h'
        rw [loop, loop, h' i (le_refl _) (by omega), ho]
      | «continue» q' =>
        rcases ih m (i + 1) (by omega) q' s1
          (by intro x; rw [show i + 1 + t = i + (t + 1) by omega]; exact hraise x) with h | h
        · left
          intro ev' h'
          rw [loop, loop, h' i (le_refl _) (by omega), ho]
          exact h ev' (fun k h1 h2 => h' k (by omega) (by omega))
        · right
          obtain ⟨s2, h1, h2, h3⟩ := h
          refine ⟨s2, ?_, ?_, completedFrom_succ ho h3⟩
          · rw [loop, ho]; exact h1
          · rw [loop, ho]; exact h2

/-- C50.  For every crash point `t`: let the objective raise `e` at its `t`-th evaluation of the
call.  Either the call ends before getting there (then what the objective would have done from `t`
on makes no difference whatsoever), or `e` propagates to the caller, and the object has exactly the
`t` completed iterations in its histories, the personal bests of exactly the completed evaluations,
and the pool of the call, if any, left open. -/
theorem C50_crash (cfg : Config n d K) (ev : Nat → Mat n d K → Except Err (Costs n K))
    (iters t : Nat) (ht : t < iters) (nproc : Option Nat) (hp : nproc ≠ some 0)
    (env : Nat → Draw n d K) (s : Opt n d K) (e : Err) (hraise : ∀ x, ev t x = .error e) :
    (∀ ev', (∀ k < t, ev' k = ev k) →
      optimize cfg ev' iters nproc env s = optimize cfg ev iters nproc env s) ∨
    ∃ s', optimize cfg ev iters nproc env s = (s', .error e) ∧
      CompletedFrom ev 0 t { s with openPools := s.openPools + if nproc.isSome then 1 else 0 } s' ∧
      ∃ E, s'.evals = s.evals ++ E ∧ E.length = t ∧ ∀ i, IsPersonalBest (particleLog E i)
        (s.swarm.pbestPos i) (s'.swarm.pbestPos i) (s'.swarm.pbestCost i) := by
  rcases loop_crash cfg ev env iters e t iters 0 ht [] (startState cfg nproc s)
    (by intro x; rw [Nat.zero_add]; exact hraise x) with h | ⟨s1, h1, h2, h3⟩
  · left
    intro ev' h'
    have := h ev' (fun k _ hk => h' k (by omega))
    unfold optimize
    rw [if_neg hp, if_neg hp]
    unfold startState at this
    simp only
    rw [this]
  · right
    refine ⟨s1, ?_, ?_, ?_⟩
    · unfold optimize
      rw [if_neg hp]
      unfold startState at h1
      simp only
      rw [h1]
    · obtain ⟨E, C, M, N, V, h⟩ := h3
      exact ⟨E, C, M, N, V, h⟩
    · have hI := loop_inv cfg ev env iters (PInv s.evals s.swarm.pbestPos)
        (fun i q s h => pInv_iterate cfg (ev i) (env i) iters i q s h) t 0 []
        (startState cfg nproc s)
        ⟨[], by simp [startState, prepare], fun i => by
          exact isPersonalBest_nil _⟩
      rw [h2] at hI
      obtain ⟨E, hE, hpb⟩ := hI
      refine ⟨E, hE, ?_, hpb⟩
      obtain ⟨E', _, _, _, _, hE', _, _, _, _, _, hl, _⟩ := h3
      have : E = E' := by
        rw [hE] at hE'
        exact List.append_cancel_left hE'
      rw [this, hl]

/-- Without an option schedule, iterations do not depend on the total number of iterations. -/
theorem loop_iters_irrelevant (cfg : Config n d K) (hoh : cfg.ohStrategy = [])
    (ev : Nat → Mat n d K → Except Err (Costs n K)) (env : Nat → Draw n d K) (a b : Nat)
    (m i : Nat) (q : List Bool) (s : Opt n d K) :
    loop cfg ev env a m i q s = loop cfg ev env b m i q s := by
  have hmove : ∀ r i (s : Opt n d K), moveSwarm cfg r a i s = moveSwarm cfg r b i s := by
    intro r i s
    have : callOptions cfg a i r s.swarm = callOptions cfg b i r s.swarm := by
      unfold callOptions
      cases cfg.kind <;> simp [hoh, ohCall]
    unfold moveSwarm
    rw [this]
  have hit : ∀ i q s, iterate cfg (ev i) (env i) a i q s = iterate cfg (ev i) (env i) b i q s := by
    intro i q s
    unfold iterate
    simp only [hmove]
  induction m generalizing i q s with
  | zero => rfl
  | succ m ih =>
    rw [loop, loop, hit]
    rcases iterate cfg (ev i) (env i) b i q s with ⟨s1, e | f⟩
    · rfl
    · cases f with
      | stop => rfl
      | «continue» q' => exact ih _ _ _

/-- C50, second half: without an option schedule, a call that crashed at evaluation `t` leaves the
object exactly as a call with `iters = t` and a well-behaved objective does – up to the number of
open pools. -/
theorem C50_as_if_shorter (cfg : Config n d K) (hoh : cfg.ohStrategy = [])
    (ev ev0 : Nat → Mat n d K → Except Err (Costs n K))
    (iters t : Nat) (ht : t < iters) (nproc : Option Nat) (hp : nproc ≠ some 0)
    (env : Nat → Draw n d K) (s : Opt n d K) (e : Err) (hraise : ∀ x, ev t x = .error e)
    (hsame : ∀ k < t, ev0 k = ev k) :
    (∀ ev', (∀ k < t, ev' k = ev k) →
      optimize cfg ev' iters nproc env s = optimize cfg ev iters nproc env s) ∨
    ∃ s', optimize cfg ev iters nproc env s = (s', .error e) ∧
      { (optimize cfg ev0 t nproc env s).1 with openPools := s'.openPools } = s' := by
  rcases loop_crash cfg ev env iters e t iters 0 ht [] (startState cfg nproc s)
    (by intro x; rw [Nat.zero_add]; exact hraise x) with h | ⟨s1, h1, h2, h3⟩
  · left
    intro ev' h'
    have := h ev' (fun k _ hk => h' k (by omega))
    unfold optimize
    rw [if_neg hp, if_neg hp]
    unfold startState at this
    simp only
    rw [this]
  · right
    have heq : ∀ m i q (s : Opt n d K), i + m ≤ t →
        loop cfg ev0 env t m i q s = loop cfg ev env t m i q s := by
      intro m
      induction m with
      | zero => intros; rfl
      | succ m ih =>
        intro i q s him
        rw [loop, loop, hsame i (by omega)]
        rcases iterate cfg (ev i) (env i) t i q s with ⟨s1, e | f⟩
        · rfl
        · cases f with
          | stop => rfl
          | «continue» q' => exact ih _ _ _ (by omega)
    have h4 : loop cfg ev0 env t t 0 [] (startState cfg nproc s) = (s1, .ok ()) := by
      rw [heq t 0 [] _ (by omega), loop_iters_irrelevant cfg hoh ev env t iters, h2]
    refine ⟨s1, ?_, ?_⟩
    · unfold optimize
      rw [if_neg hp]
      unfold startState at h1
      simp only
      rw [h1]
    · have hc := optimize_cases cfg ev0 t nproc env s
      generalize (optimize cfg ev0 t nproc env s).1 = s' at hc ⊢
      generalize (optimize cfg ev0 t nproc env s).2 = o at hc
      cases hc with
      | badPool h => exact absurd h hp
      | loopError s2 e hp h => rw [h4] at h; cases h
      | finishError s2 e hp h hf => rw [h4] at h; cases h; rfl
      | done s2 r hp h hf => rw [h4] at h; cases h; rfl

/-- C50, third part: the object is usable after the crash.  In the situations of C58, the next call
with an objective that does not raise returns normally. -/
theorem C50_usable [IsStrictOrderedRing K] (hn : 0 < n) (cfg : Config n d K) (hv : VelocityWorks cfg)
    (hb : BoundaryWorks cfg) (hoh : cfg.ohStrategy = [])
    (hkeys : ∀ key ∈ ["c1", "c2", "w"], ∃ v, (key, v) ∈ cfg.options) (s : Opt n d K)
    (hr : Reachable cfg s) (bad ev : Nat → Mat n d K → Except Err (Costs n K)) (iters iters' : Nat)
    (hit : 1 ≤ iters) (nproc nproc' : Option Nat) (hp : nproc ≠ some 0)
    (env env' : Nat → Draw n d K)
    (hev : ∀ i x, ∃ c, ev i x = .ok c ∧ (cfg.kind.isStar → ∃ a, XR.lt (c a) XR.pinf = true))
    (ht : ∀ i, TopologyWorks cfg (env i).oracle) :
    ∃ v, (optimize cfg ev iters nproc env (optimize cfg bad iters' nproc' env' s).1).2 = .ok v := by
  refine C58_returns hn cfg hv hb hoh hkeys _ ?_ ev iters hit nproc hp env hev ht
  obtain ⟨r1, r2, s0, ops, hc, rfl⟩ := hr
  exact ⟨r1, r2, s0, ops ++ [.optimize bad iters' nproc' env'], hc, by
    simp [runOps, List.foldl_append, stepOp]⟩

/-- The sphere function raising at evaluation 2. -/
def Ex.crashing (n d : Nat) : Nat → Mat n d ℚ → Except Err (Costs n ℚ) := fun k x =>
  if k = 2 then .error (.user 7) else Ex.sphere n d k x

/-- Non-vacuity: a run that reaches the crash point with a pool open. -/
example : (match construct (Ex.gcfg 2 1) (Ex.init 2 1) (Ex.init 2 1) with
    | .ok s => match optimize (Ex.gcfg 2 1) (Ex.crashing 2 1) 5 (some 3) (fun _ => Ex.draw 2 1) s with
      | (s', .error e) => decide (e = .user 7 ∧ s'.costHistory.length = 2 ∧ s'.evals.length = 2 ∧
          s'.openPools = 1)
      | _ => false
    | _ => false) = true := by decide +kernel

end PySwarms
