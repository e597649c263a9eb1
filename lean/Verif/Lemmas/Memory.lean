import Verif.Model.Memory
import Verif.Props.Objective

/-! # Lemmas for C118 -/

set_option linter.unusedSectionVars false

namespace PySwarms.Memo

variable {n d : Nat} {K M σ : Type} [Field K] [LinearOrder K] [Transc K] [FloorRing K]

theorem iterateM_snd (cfg : Config n d K) (ev : Mat n d K → σ → σ × Except Err (Costs n K))
    (r : Draw n d K) (iters i : Nat) (q : List Bool) (m : σ) (s : Opt n d K) :
    (iterateM cfg ev r iters i q m s).2 = iterate cfg (fun x => (ev x m).2) r iters i q s ∧
      (iterateM cfg ev r iters i q m s).1 = (ev s.swarm.position m).1 := by
  unfold iterateM iterate
  beta_reduce
  rcases ev s.swarm.position m with ⟨m', e | c⟩
  · exact ⟨rfl, rfl⟩
  · dsimp only
    rcases callGbest cfg r.oracle (recordEval c s).top (recordEval c s).swarm with ⟨t, _ | g⟩
    · exact ⟨rfl, rfl⟩
    · dsimp only
      split
      · exact ⟨rfl, rfl⟩
      · rcases moveSwarm cfg r iters i (recordBest t g (recordEval c s)) with ⟨s3, _ | _⟩ <;>
          exact ⟨rfl, rfl⟩

/-- The loop only sees the objective through the values it returns: with the memories `τ i` before
iteration `i` it is the loop without memory. -/
theorem loopM_snd (cfg : Config n d K) (ev : Nat → Mat n d K → σ → σ × Except Err (Costs n K))
    (env : Nat → Draw n d K) (iters : Nat) :
    ∀ (k i : Nat) (q : List Bool) (m : σ) (s : Opt n d K), ∃ τ : Nat → σ,
      (loopM cfg ev env iters k i q m s).2 =
        loop cfg (fun j x => (ev j x (τ j)).2) env iters k i q s
  | 0, _, _, m, _ => ⟨fun _ => m, rfl⟩
  | k + 1, i, q, m, s => by
    obtain ⟨h, -⟩ := iterateM_snd cfg (ev i) (env i) iters i q m s
    rcases hit : iterateM cfg (ev i) (env i) iters i q m s with ⟨m', s', e | _ | q'⟩ <;>
      rw [hit] at h
    · refine ⟨fun _ => m, ?_⟩
      rw [loopM, hit, loop, ← h]
    · refine ⟨fun _ => m, ?_⟩
      rw [loopM, hit, loop, ← h]
    · obtain ⟨τ, hτ⟩ := loopM_snd cfg ev env iters k (i + 1) q' m' s'
      refine ⟨fun j => if j ≤ i then m else τ j, ?_⟩
      rw [loopM, hit, loop]
      simp only [le_refl, if_true]
      rw [← h]
      dsimp only
      rw [hτ]
      have key : ∀ (k i' : Nat) (q : List Bool) (s : Opt n d K), i < i' →
          loop cfg (fun j x => (ev j x (τ j)).2) env iters k i' q s =
            loop cfg (fun j x => (ev j x (if j ≤ i then m else τ j)).2) env iters k i' q s := by
        intro k
        induction k with
        | zero => intro i' q s _; rfl
        | succ k ih =>
          intro i' q s hi
          rw [loop, loop]
          rw [if_neg (by omega)]
          rcases iterate cfg (fun x => (ev i' x (τ i')).2) (env i') iters i' q s with
            ⟨s', e | _ | q'⟩
          · rfl
          · rfl
          · exact ih (i' + 1) q' s' (by omega)
      exact key k (i + 1) q' s' (by omega)

theorem optimizeM_snd (cfg : Config n d K) (ev : Nat → Mat n d K → σ → σ × Except Err (Costs n K))
    (newPool : σ → σ) (iters : Nat) (nproc : Option Nat) (env : Nat → Draw n d K) (m : σ)
    (s : Opt n d K) : ∃ τ : Nat → σ,
      (optimizeM cfg ev newPool iters nproc env m s).2 =
        optimize cfg (fun j x => (ev j x (τ j)).2) iters nproc env s := by
  by_cases h0 : nproc = some 0
  · refine ⟨fun _ => m, ?_⟩
    unfold optimizeM optimize
    rw [if_pos h0, if_pos h0]
  · unfold optimizeM optimize
    simp only [if_neg h0]
    obtain ⟨τ, hτ⟩ := loopM_snd cfg ev env iters iters 0 [] (if nproc.isSome then newPool m else m)
      { prepare cfg s with openPools := s.openPools + (if nproc.isSome then 1 else 0) }
    refine ⟨τ, ?_⟩
    rw [← hτ]
    rcases loopM cfg ev env iters iters 0 [] (if nproc.isSome then newPool m else m)
      { prepare cfg s with openPools := s.openPools + (if nproc.isSome then 1 else 0) } with
      ⟨m1, s1, e | _⟩
    · rfl
    · dsimp only
      rcases finish s1 with e | r <;> rfl

/-- An invariant of the memory that every evaluation keeps holds at the end. -/
theorem loopM_inv (cfg : Config n d K) (ev : Nat → Mat n d K → σ → σ × Except Err (Costs n K))
    (env : Nat → Draw n d K) (iters : Nat) (I : σ → Prop)
    (hI : ∀ k x m, I m → I (ev k x m).1) :
    ∀ (k i : Nat) (q : List Bool) (m : σ) (s : Opt n d K), I m →
      I (loopM cfg ev env iters k i q m s).1
  | 0, _, _, m, _, h => h
  | k + 1, i, q, m, s, h => by
    obtain ⟨-, h1⟩ := iterateM_snd cfg (ev i) (env i) iters i q m s
    have h2 := hI i s.swarm.position m h
    rw [← h1] at h2
    rw [loopM]
    rcases hit : iterateM cfg (ev i) (env i) iters i q m s with ⟨m', s', e | _ | q'⟩ <;>
      rw [hit] at h2
    · exact h2
    · exact h2
    · exact loopM_inv cfg ev env iters I hI k (i + 1) q' m' s' h2

/-- If under an invariant the values do not depend on the memory, the loop is the loop without
memory. -/
theorem loopM_eq (cfg : Config n d K) (ev : Nat → Mat n d K → σ → σ × Except Err (Costs n K))
    (ev0 : Nat → Mat n d K → Except Err (Costs n K)) (env : Nat → Draw n d K) (iters : Nat)
    (I : σ → Prop) (hI : ∀ k x m, I m → I (ev k x m).1) (he : ∀ k x m, I m → (ev k x m).2 = ev0 k x) :
    ∀ (k i : Nat) (q : List Bool) (m : σ) (s : Opt n d K), I m →
      (loopM cfg ev env iters k i q m s).2 = loop cfg ev0 env iters k i q s
  | 0, _, _, _, _, _ => rfl
  | k + 1, i, q, m, s, h => by
    obtain ⟨h1, h2⟩ := iterateM_snd cfg (ev i) (env i) iters i q m s
    have h3 := hI i s.swarm.position m h
    rw [← h2] at h3
    have h4 : (fun x => (ev i x m).2) = ev0 i := funext fun x => he i x m h
    rw [h4] at h1
    rw [loopM, loop, ← h1]
    rcases hit : iterateM cfg (ev i) (env i) iters i q m s with ⟨m', s', e | _ | q'⟩
    · rfl
    · rfl
    · rw [hit] at h3
      exact loopM_eq cfg ev ev0 env iters I hI he k (i + 1) q' m' s' h3

theorem optimizeM_inv (cfg : Config n d K) (ev : Nat → Mat n d K → σ → σ × Except Err (Costs n K))
    (newPool : σ → σ) (iters : Nat) (nproc : Option Nat) (env : Nat → Draw n d K)
    (I : σ → Prop) (hI : ∀ k x m, I m → I (ev k x m).1) (hn : ∀ m, I m → I (newPool m)) (m : σ)
    (s : Opt n d K) (h : I m) : I (optimizeM cfg ev newPool iters nproc env m s).1 := by
  unfold optimizeM
  split
  · exact h
  · have h0 : I (if nproc.isSome then newPool m else m) := by
      split
      · exact hn m h
      · exact h
    have h1 := loopM_inv cfg ev env iters I hI iters 0 [] _
      { prepare cfg s with openPools := s.openPools + (if nproc.isSome then 1 else 0) } h0
    dsimp only at h1 ⊢
    generalize loopM cfg ev env iters iters 0 [] _ _ = X at h1
    rcases X with ⟨m1, s1, e | _⟩
    · exact h1
    · dsimp only
      rcases finish s1 with e | r <;> exact h1

theorem optimizeM_eq (cfg : Config n d K) (ev : Nat → Mat n d K → σ → σ × Except Err (Costs n K))
    (ev0 : Nat → Mat n d K → Except Err (Costs n K))
    (newPool : σ → σ) (iters : Nat) (nproc : Option Nat) (env : Nat → Draw n d K)
    (I : σ → Prop) (hI : ∀ k x m, I m → I (ev k x m).1) (hn : nproc.isSome → ∀ m, I (newPool m))
    (he : ∀ k x m, I m → (ev k x m).2 = ev0 k x) (m : σ) (hm : nproc = none → I m)
    (s : Opt n d K) :
    (optimizeM cfg ev newPool iters nproc env m s).2 = optimize cfg ev0 iters nproc env s := by
  unfold optimizeM optimize
  by_cases h0 : nproc = some 0
  · rw [if_pos h0, if_pos h0]
  · simp only [if_neg h0]
    have h1 : I (if nproc.isSome then newPool m else m) := by
      split
      · next h => exact hn h m
      · next h => exact hm (by simpa using h)
    have h2 := loopM_eq cfg ev ev0 env iters I hI he iters 0 [] _
      { prepare cfg s with openPools := s.openPools + (if nproc.isSome then 1 else 0) } h1
    rw [← h2]
    rcases loopM cfg ev env iters iters 0 [] (if nproc.isSome then newPool m else m)
      { prepare cfg s with openPools := s.openPools + (if nproc.isSome then 1 else 0) } with
      ⟨m1, s1, e | _⟩
    · rfl
    · dsimp only
      rcases finish s1 with e | r <;> rfl

/-! ## Evaluations -/

theorem runTask_fold (f : MObj M d K) (home : Home) (tasks : List (List (Vec d K)))
    (I : M → Prop) (f0 : Objective d K) (hv : ∀ m x, I m → (f m x).2 = f0 x)
    (hk : home = .inModule → ∀ m x, I m → I (f m x).1) (sched : List (Nat × Nat)) :
    ∀ (ms : Mems M) (r : MapResult (List (XR K))),
      (home = .inModule → ∀ j, I (ms.workers j)) → (home = .inObject → I ms.parent) →
      (sched.foldl (runTask f home tasks) (ms, r)).2 =
        (sched.map Prod.fst).foldl (MapResult.arrive f0 tasks) r ∧
      (home = .inModule → ∀ j, I ((sched.foldl (runTask f home tasks) (ms, r)).1.workers j)) := by
  induction sched with
  | nil => intro ms r h1 h2; exact ⟨rfl, h1⟩
  | cons kw sched ih =>
    intro ms r h1 h2
    obtain ⟨k, w⟩ := kw
    rw [List.foldl_cons, List.map_cons, List.foldl_cons]
    have harr : ∀ (v : Except Err (List (XR K))) c, tasks[k]? = some c → v = f0 c →
        r.arrive (fun _ => v) tasks k = r.arrive f0 tasks k := by
      intro v c hc hvc
      unfold MapResult.arrive
      rw [hc]
      simp only [hvc]
    rcases hc : tasks[k]? with _ | c
    · have e1 : runTask f home tasks (ms, r) (k, w) = (ms, r) := by
        unfold runTask
        simp only [hc]
      have e2 : r.arrive f0 tasks k = r := by
        unfold MapResult.arrive
        rw [hc]
      rw [e1, e2]
      exact ih ms r h1 h2
    · cases home with
      | inModule =>
        have e1 : runTask f .inModule tasks (ms, r) (k, w) =
            ({ ms with workers := fun j => if j = w then (f (ms.workers w) c).1 else ms.workers j },
              r.arrive f0 tasks k) := by
          unfold runTask
          simp only [hc]
          rw [harr _ c hc (hv _ _ (h1 rfl w))]
        rw [e1]
        refine ih _ _ (fun _ j => ?_) (fun h => by cases h)
        dsimp only
        split
        · exact hk rfl _ _ (h1 rfl w)
        · exact h1 rfl j
      | inObject =>
        have e1 : runTask f .inObject tasks (ms, r) (k, w) = (ms, r.arrive f0 tasks k) := by
          unfold runTask
          simp only [hc]
          rw [harr _ c hc (hv _ _ (h2 rfl))]
        rw [e1]
        exact ih _ _ h1 h2

theorem runTask_parent (f : MObj M d K) (home : Home) (tasks : List (List (Vec d K)))
    (sched : List (Nat × Nat)) : ∀ a : Mems M × MapResult (List (XR K)),
      (sched.foldl (runTask f home tasks) a).1.parent = a.1.parent := by
  induction sched with
  | nil => intro a; rfl
  | cons kw sched ih =>
    intro a
    rw [List.foldl_cons, ih]
    unfold runTask
    split
    · rfl
    · cases home <;> rfl

theorem computeM_parent (f : MObj M d K) (home : Home) (p : Nat) (sched : List (Nat × Nat))
    (x : List (Vec d K)) (ms : Mems M) :
    (computeObjectiveM f home (some (p, sched)) x ms).1.parent = ms.parent := by
  have h := runTask_parent f home (arraySplit x p) sched (ms, {})
  unfold computeObjectiveM
  dsimp only
  rcases hp : poolMapM f home (arraySplit x p) sched ms with ⟨ms', e | l⟩ <;>
    · have : ms' = (sched.foldl (runTask f home (arraySplit x p)) (ms, {})).1 := by
        rw [← (Prod.mk.inj (show _ = (ms', _) from hp)).1]
      dsimp only
      rw [this, h]

theorem evaluatorM_parent (f : MObj M d K) (home : Home)
    (pool : Nat → Option (Nat × List (Nat × Nat))) (hp : ∀ k, (pool k).isSome) (k : Nat)
    (x : Mat n d K) (ms : Mems M) : (evaluatorM f home pool k x ms).1.parent = ms.parent := by
  obtain ⟨⟨p, sched⟩, hps⟩ := Option.isSome_iff_exists.1 (hp k)
  have h := computeM_parent f home p sched (rowsOf x) ms
  unfold evaluatorM
  rw [hps]
  rcases hc : computeObjectiveM f home (some (p, sched)) (rowsOf x) ms with ⟨ms', e | l⟩ <;>
    rw [hc] at h <;> exact h

/-- Evaluation with a pool under an invariant of the memory. -/
theorem evaluatorM_pool (f : MObj M d K) (home : Home) (p : Nat) (sched : Nat → List (Nat × Nat))
    (I : M → Prop) (f0 : Objective d K) (hv : ∀ m x, I m → (f m x).2 = f0 x)
    (hk : home = .inModule → ∀ m x, I m → I (f m x).1) (k : Nat) (x : Mat n d K) (ms : Mems M)
    (h1 : home = .inModule → ∀ j, I (ms.workers j)) (h2 : home = .inObject → I ms.parent) :
    (evaluatorM f home (fun k => some (p, sched k)) k x ms).2 =
      evaluator (fun _ => f0) (fun k => some (p, (sched k).map Prod.fst)) k x ∧
    (home = .inModule →
      ∀ j, I ((evaluatorM f home (fun k => some (p, sched k)) k x ms).1.workers j)) := by
  obtain ⟨g1, g2⟩ := runTask_fold f home (arraySplit (rowsOf x) p) I f0 hv hk (sched k) ms {} h1 h2
  have e1 : poolMapM f home (arraySplit (rowsOf x) p) (sched k) ms =
      (((sched k).foldl (runTask f home (arraySplit (rowsOf x) p)) (ms, {})).1,
        poolMap f0 (arraySplit (rowsOf x) p) ((sched k).map Prod.fst)) := by
    unfold poolMapM poolMap
    simp only [g1]
    congr 1
    rcases (((sched k).map Prod.fst).foldl (MapResult.arrive f0 (arraySplit (rowsOf x) p))
      {}).failure with _ | e
    · dsimp only
      rcases (List.range (arraySplit (rowsOf x) p).length).mapM
        (((sched k).map Prod.fst).foldl (MapResult.arrive f0 (arraySplit (rowsOf x) p)) {}).slots
        with _ | l <;> rfl
    · rfl
  unfold evaluatorM evaluator computeObjectiveM computeObjective
  dsimp only
  rw [e1]
  generalize ((sched k).foldl (runTask f home (arraySplit (rowsOf x) p)) (ms, {})).1 = ms' at g2
  rcases poolMap f0 (arraySplit (rowsOf x) p) ((sched k).map Prod.fst) with e | l
  · exact ⟨rfl, g2⟩
  · exact ⟨rfl, g2⟩

theorem evaluatorM_serial (f : MObj M d K) (home : Home) (k : Nat) (x : Mat n d K) (ms : Mems M) :
    (evaluatorM f home (fun _ => none) k x ms).1.parent = (f ms.parent (rowsOf x)).1 ∧
    (evaluatorM f home (fun _ => none) k x ms).2 =
      match (f ms.parent (rowsOf x)).2 with
      | .error e => .error e
      | .ok l => toCosts l := by
  unfold evaluatorM computeObjectiveM
  dsimp only
  rcases f ms.parent (rowsOf x) with ⟨m', e | l⟩ <;> exact ⟨rfl, rfl⟩

end PySwarms.Memo
