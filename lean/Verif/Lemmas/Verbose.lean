import Verif.Model.Verbose
import Verif.Lemmas.Cover

/-! # Lemmas for C117 -/

set_option linter.unusedSectionVars false

namespace PySwarms.Say

variable {n d : Nat} {K : Type} [Field K] [LinearOrder K] [IsStrictOrderedRing K] [Transc K]
  [FloorRing K]

theorem iterateV_snd (verbose : Bool) (cfg : Config n d K)
    (ev : Mat n d K → Except Err (Costs n K)) (r : Draw n d K) (iters i : Nat) (q : List Bool)
    (s : Opt n d K) : (iterateV verbose cfg ev r iters i q s).2 = iterate cfg ev r iters i q s := by
  unfold iterateV iterate
  cases ev s.swarm.position with
  | error e => rfl
  | ok c =>
    dsimp only
    rcases callGbest cfg r.oracle (recordEval c s).top (recordEval c s).swarm with ⟨t, _ | g⟩
    · rfl
    · dsimp only
      split
      · rfl
      · rcases moveSwarm cfg r iters i (recordBest t g (recordEval c s)) with ⟨s3, _ | _⟩ <;> rfl

theorem moveSwarm_hist (cfg : Config n d K) (r : Draw n d K) (iters i : Nat) (s : Opt n d K) :
    (moveSwarm cfg r iters i s).1.costHistory = s.costHistory ∧
      (moveSwarm cfg r iters i s).1.evals = s.evals := by
  unfold moveSwarm
  split
  · exact ⟨rfl, rfl⟩
  · dsimp only
    split
    · exact ⟨rfl, rfl⟩
    · split <;> exact ⟨rfl, rfl⟩

theorem iterateV_out (cfg : Config n d K)
    (ev : Mat n d K → Except Err (Costs n K)) (r : Draw n d K) (iters i : Nat) (q : List Bool)
    (s : Opt n d K) :
    ∃ posts, (iterateV true cfg ev r iters i q s).1 = posts.map .postfix ∧
      (iterateV true cfg ev r iters i q s).2.1.costHistory = s.costHistory ++ posts ∧
      ∀ f, (iterateV true cfg ev r iters i q s).2.2 = .ok f →
        (iterateV true cfg ev r iters i q s).2.1.evals.length = s.evals.length + posts.length := by
  unfold iterateV
  cases ev s.swarm.position with
  | error e => exact ⟨[], rfl, (List.append_nil _).symm, fun f h => by cases h⟩
  | ok c =>
    dsimp only
    rcases callGbest cfg r.oracle (recordEval c s).top (recordEval c s).swarm with ⟨t, _ | g⟩
    · exact ⟨[], rfl, (List.append_nil _).symm, fun f h => by cases h⟩
    · dsimp only
      have hh : (recordBest t g (recordEval c s)).costHistory =
          s.costHistory ++ [(recordBest t g (recordEval c s)).swarm.bestCostVal] := rfl
      have he : (recordBest t g (recordEval c s)).evals.length = s.evals.length + 1 := by
        simp [recordBest, recordEval, Opt.populateHistory]
      split
      · exact ⟨[_], rfl, hh, fun _ _ => he⟩
      · have hm := moveSwarm_hist cfg r iters i (recordBest t g (recordEval c s))
        rcases hmv : moveSwarm cfg r iters i (recordBest t g (recordEval c s)) with ⟨s3, _ | _⟩ <;>
          rw [hmv] at hm <;>
          exact ⟨[_], rfl, by rw [← hh]; exact hm.1,
            fun _ _ => (congrArg List.length hm.2).trans he⟩

theorem iterateV_quiet (cfg : Config n d K)
    (ev : Mat n d K → Except Err (Costs n K)) (r : Draw n d K) (iters i : Nat) (q : List Bool)
    (s : Opt n d K) : (iterateV false cfg ev r iters i q s).1 = [] := by
  unfold iterateV
  cases ev s.swarm.position with
  | error e => rfl
  | ok c =>
    dsimp only
    rcases callGbest cfg r.oracle (recordEval c s).top (recordEval c s).swarm with ⟨t, _ | g⟩
    · rfl
    · dsimp only
      split
      · rfl
      · rcases moveSwarm cfg r iters i (recordBest t g (recordEval c s)) with ⟨s3, _ | _⟩ <;> rfl

theorem loopV_snd (verbose : Bool) (cfg : Config n d K)
    (ev : Nat → Mat n d K → Except Err (Costs n K)) (env : Nat → Draw n d K) (iters : Nat) :
    ∀ (m i : Nat) (q : List Bool) (s : Opt n d K),
      (loopV verbose cfg ev env iters m i q s).2 = loop cfg ev env iters m i q s
  | 0, _, _, _ => rfl
  | m + 1, i, q, s => by
    have h := iterateV_snd verbose cfg (ev i) (env i) iters i q s
    unfold loopV loop
    rw [← h]
    rcases iterateV verbose cfg (ev i) (env i) iters i q s with ⟨o, s', _ | _ | q'⟩
    · rfl
    · rfl
    · exact loopV_snd verbose cfg ev env iters m (i + 1) q' s'

theorem loopV_out (cfg : Config n d K)
    (ev : Nat → Mat n d K → Except Err (Costs n K)) (env : Nat → Draw n d K) (iters : Nat) :
    ∀ (m i : Nat) (q : List Bool) (s : Opt n d K),
      ∃ posts, (loopV true cfg ev env iters m i q s).1 = posts.map .postfix ∧
        (loopV true cfg ev env iters m i q s).2.1.costHistory = s.costHistory ++ posts ∧
        ((loopV true cfg ev env iters m i q s).2.2 = .ok () →
          (loopV true cfg ev env iters m i q s).2.1.evals.length = s.evals.length + posts.length)
  | 0, _, _, _ => ⟨[], rfl, (List.append_nil _).symm, fun _ => rfl⟩
  | m + 1, i, q, s => by
    obtain ⟨posts, h1, h2, h3⟩ := iterateV_out cfg (ev i) (env i) iters i q s
    unfold loopV
    rcases hit : iterateV true cfg (ev i) (env i) iters i q s with ⟨o, s', _ | _ | q'⟩ <;>
      rw [hit] at h1 h2 h3
    · exact ⟨posts, h1, h2, fun h => by cases h⟩
    · exact ⟨posts, h1, h2, fun _ => h3 _ rfl⟩
    · obtain ⟨posts', h1', h2', h3'⟩ := loopV_out cfg ev env iters m (i + 1) q' s'
      refine ⟨posts ++ posts', ?_, ?_, fun h => ?_⟩
      · dsimp only at h1 ⊢
        rw [h1, h1', List.map_append]
      · dsimp only at h2 ⊢
        rw [h2', h2, List.append_assoc]
      · have := h3 _ rfl
        dsimp only at this h ⊢
        rw [h3' h, this, List.length_append]
        omega

theorem loopV_quiet (cfg : Config n d K)
    (ev : Nat → Mat n d K → Except Err (Costs n K)) (env : Nat → Draw n d K) (iters : Nat) :
    ∀ (m i : Nat) (q : List Bool) (s : Opt n d K), (loopV false cfg ev env iters m i q s).1 = []
  | 0, _, _, _ => rfl
  | m + 1, i, q, s => by
    have h := iterateV_quiet cfg (ev i) (env i) iters i q s
    unfold loopV
    rcases hit : iterateV false cfg (ev i) (env i) iters i q s with ⟨o, s', _ | _ | q'⟩ <;>
      rw [hit] at h
    · exact h
    · exact h
    · dsimp only at h ⊢
      rw [h, loopV_quiet cfg ev env iters m (i + 1) q' s']
      rfl

end PySwarms.Say
