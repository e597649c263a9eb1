import Verif.Lemmas.Memory
import Verif.Examples

/-!
# C118: objectives with a memory of their own
-/

set_option linter.unusedSectionVars false

namespace PySwarms.Memo

variable {n d : Nat} {K M : Type}

/-! ## Specification -/

/-- Calling the objective by hand, starting with memory `m`, on the positions of `E` one after the
other gives the costs in `E` and leaves the memory `m'`. -/
def Calls (f : MObj M d K) : M → List (Mat n d K × Costs n K) → M → Prop
  | m, [], m' => m' = m
  | m, (x, c) :: E, m' =>
    (f m (rowsOf x)).2 = .ok ((List.finRange n).map c) ∧ Calls f (f m (rowsOf x)).1 E m'

/-- The objective is asked once more, for positions `x`, and does not answer properly: it raises
`e`, or returns an array that does not have one entry per particle. -/
def Refuses (f : MObj M d K) (m : M) (x : Mat n d K) (e : Err) : Prop :=
  (f m (rowsOf x)).2 = .error e ∨ ∃ l, (f m (rowsOf x)).2 = .ok l ∧ l.length ≠ n

/-- An objective with a budget of `B` calls: it counts its calls and raises when the budget is used
up. -/
def budget (B : Nat) (g : Vec d K → XR K) : MObj Nat d K := fun m x =>
  if m < B then (m + 1, .ok (x.map g)) else (m, .error (.user 0))

/-! ## Proofs -/

theorem toCosts_ok {l : List (XR K)} {c : Costs n K} (h : toCosts l = .ok c) :
    l = (List.finRange n).map c := by
  unfold toCosts at h
  split at h
  · next hl =>
    cases h
    apply List.ext_getElem
    · simp [hl]
    · intro i h1 h2
      simp
  · cases h

theorem toCosts_error {l : List (XR K)} {e : Err} (h : (toCosts l : Except Err (Costs n K)) = .error e) :
    l.length ≠ n := by
  unfold toCosts at h
  split at h
  · cases h
  · assumption

theorem Calls.append {f : MObj M d K} {E E' : List (Mat n d K × Costs n K)} :
    ∀ {m m1 m2 : M}, Calls f m E m1 → Calls f m1 E' m2 → Calls f m (E ++ E') m2 := by
  induction E with
  | nil => intro m m1 m2 h1 h2; cases h1; exact h2
  | cons a E ih =>
    intro m m1 m2 h1 h2
    exact ⟨h1.1, ih h1.2 h2⟩

section
variable [Field K] [LinearOrder K] [Transc K] [FloorRing K]

theorem moveSwarm_evals (cfg : Config n d K) (r : Draw n d K) (iters i : Nat) (s : Opt n d K) :
    (moveSwarm cfg r iters i s).1.evals = s.evals := by
  unfold moveSwarm
  split
  · rfl
  · dsimp only
    split
    · rfl
    · split <;> rfl

theorem iterate_calls (cfg : Config n d K) (f : MObj M d K) (home : Home) (r : Draw n d K)
    (iters i : Nat) (q : List Bool) (ms : Mems M) (s : Opt n d K) :
    ∃ E m1, (iterateM cfg (evaluatorM f home (fun _ => none) i) r iters i q ms s).2.1.evals =
        s.evals ++ E ∧ Calls f ms.parent E m1 ∧
      ((iterateM cfg (evaluatorM f home (fun _ => none) i) r iters i q ms s).1.parent = m1 ∨
        ∃ e, (iterateM cfg (evaluatorM f home (fun _ => none) i) r iters i q ms s).2.2 = .error e ∧
          Refuses f m1
            (iterateM cfg (evaluatorM f home (fun _ => none) i) r iters i q ms s).2.1.swarm.position e ∧
          (iterateM cfg (evaluatorM f home (fun _ => none) i) r iters i q ms s).1.parent =
            (f m1 (rowsOf (iterateM cfg (evaluatorM f home (fun _ => none) i) r iters i q ms
              s).2.1.swarm.position)).1) := by
  obtain ⟨h1, h2⟩ := evaluatorM_serial f home i s.swarm.position ms
  unfold iterateM
  rcases hev : evaluatorM f home (fun _ => none) i s.swarm.position ms with ⟨ms', e | c⟩ <;>
    rw [hev] at h1 h2 <;> dsimp only at h1 h2
  · refine ⟨[], ms.parent, (List.append_nil _).symm, rfl, Or.inr ⟨e, rfl, ?_, h1⟩⟩
    rcases hf : (f ms.parent (rowsOf s.swarm.position)).2 with e' | l
    · rw [hf] at h2
      cases h2
      exact Or.inl hf
    · rw [hf] at h2
      exact Or.inr ⟨l, hf, toCosts_error h2.symm⟩
  · have hc : Calls f ms.parent [(s.swarm.position, c)] ms'.parent := by
      refine ⟨?_, h1⟩
      rcases hf : (f ms.parent (rowsOf s.swarm.position)).2 with e' | l
      · rw [hf] at h2; cases h2
      · rw [hf] at h2
        rw [toCosts_ok h2.symm]
    dsimp only
    rcases callGbest cfg r.oracle (recordEval c s).top (recordEval c s).swarm with ⟨t, _ | g⟩
    · exact ⟨_, _, rfl, hc, Or.inl rfl⟩
    · dsimp only
      split
      · exact ⟨_, _, rfl, hc, Or.inl rfl⟩
      · have hm := moveSwarm_evals cfg r iters i (recordBest t g (recordEval c s))
        rcases hmv : moveSwarm cfg r iters i (recordBest t g (recordEval c s)) with ⟨s3, _ | _⟩ <;>
          rw [hmv] at hm <;> exact ⟨_, _, hm, hc, Or.inl rfl⟩

theorem loop_calls (cfg : Config n d K) (f : MObj M d K) (home : Home) (env : Nat → Draw n d K)
    (iters : Nat) : ∀ (k i : Nat) (q : List Bool) (ms : Mems M) (s : Opt n d K),
    ∃ E m1, (loopM cfg (evaluatorM f home fun _ => none) env iters k i q ms s).2.1.evals =
        s.evals ++ E ∧ Calls f ms.parent E m1 ∧
      ((loopM cfg (evaluatorM f home fun _ => none) env iters k i q ms s).1.parent = m1 ∨
        ∃ e, (loopM cfg (evaluatorM f home fun _ => none) env iters k i q ms s).2.2 = .error e ∧
          Refuses f m1
            (loopM cfg (evaluatorM f home fun _ => none) env iters k i q ms s).2.1.swarm.position e ∧
          (loopM cfg (evaluatorM f home fun _ => none) env iters k i q ms s).1.parent =
            (f m1 (rowsOf (loopM cfg (evaluatorM f home fun _ => none) env iters k i q ms
              s).2.1.swarm.position)).1)
  | 0, _, _, ms, s => ⟨[], ms.parent, (List.append_nil _).symm, rfl, Or.inl rfl⟩
  | k + 1, i, q, ms, s => by
    obtain ⟨E, m1, h1, h2, h3⟩ := iterate_calls cfg f home (env i) iters i q ms s
    rw [loopM]
    rcases hit : iterateM cfg (evaluatorM f home (fun _ => none) i) (env i) iters i q ms s with
      ⟨ms', s', e | _ | q'⟩ <;> rw [hit] at h1 h3
    · refine ⟨E, m1, h1, h2, ?_⟩
      rcases h3 with h3 | ⟨e', he, h3⟩
      · exact Or.inl h3
      · cases he
        exact Or.inr ⟨e, rfl, h3⟩
    · refine ⟨E, m1, h1, h2, ?_⟩
      rcases h3 with h3 | ⟨e', he, -⟩
      · exact Or.inl h3
      · cases he
    · rcases h3 with h3 | ⟨e', he, -⟩
      · obtain ⟨E', m2, g1, g2, g3⟩ := loop_calls cfg f home env iters k (i + 1) q' ms' s'
        refine ⟨E ++ E', m2, ?_, h2.append (h3 ▸ g2), g3⟩
        dsimp only at h1 ⊢
        rw [g1, h1, List.append_assoc]
      · cases he

/-- C118: whatever memory the objective has, and with or without `n_processes`, what `optimize`
returns and what it leaves in the optimizer is what it returns and leaves for some objective
without memory that may differ from iteration to iteration – so all theorems about `optimize` with
arbitrary objectives hold for objectives with a memory. -/
theorem C118_covered (cfg : Config n d K) (f : MObj M d K) (home : Home) (fresh : Option M)
    (iters : Nat) (pool : Option (Nat × (Nat → List (Nat × Nat)))) (env : Nat → Draw n d K)
    (ms : Mems M) (s : Opt n d K) : ∃ ev : Nat → Mat n d K → Except Err (Costs n K),
      (run cfg f home fresh iters pool env ms s).2 =
        optimize cfg ev iters (pool.map Prod.fst) env s := by
  obtain ⟨τ, h⟩ := optimizeM_snd cfg (evaluatorM f home fun k => pool.map fun a => (a.1, a.2 k))
    (Mems.newPool fresh) iters (pool.map Prod.fst) env ms s
  exact ⟨_, h⟩

/-- C118: without `n_processes` the memory after `optimize` is the one that calling the objective
by hand on the evaluated positions, in their order, leaves – including the last call if that one was
refused, and then `optimize` raises. -/
theorem C118_serial (cfg : Config n d K) (f : MObj M d K) (home : Home) (fresh : Option M)
    (iters : Nat) (env : Nat → Draw n d K) (ms : Mems M) (s : Opt n d K)
    (o : Mems M × Opt n d K × Except Err (XR K × Vec d K))
    (ho : run cfg f home fresh iters none env ms s = o) :
    ∃ E m1, o.2.1.evals = s.evals ++ E ∧ Calls f ms.parent E m1 ∧
      (o.1.parent = m1 ∨ ∃ e, o.2.2 = .error e ∧ Refuses f m1 o.2.1.swarm.position e ∧
        o.1.parent = (f m1 (rowsOf o.2.1.swarm.position)).1) := by
  subst ho
  unfold run optimizeM
  rw [if_neg (by simp)]
  obtain ⟨E, m1, h1, h2, h3⟩ := loop_calls cfg f home env iters iters 0 [] ms
    { prepare cfg s with openPools := s.openPools + 0 }
  simp only [Option.map_none, Option.isSome_none, Bool.false_eq_true, if_false] at h1 h3 ⊢
  generalize loopM cfg (evaluatorM f home fun _ => none) env iters iters 0 [] ms _ = X at h1 h3
  rcases X with ⟨m', s', e | _⟩
  · refine ⟨E, m1, h1, h2, ?_⟩
    rcases h3 with h3 | ⟨e', he, h3⟩
    · exact Or.inl h3
    · cases he
      exact Or.inr ⟨e, rfl, h3⟩
  · dsimp only
    have h3' : m'.parent = m1 := by
      rcases h3 with h3 | ⟨e', he, -⟩
      · exact h3
      · cases he
    rcases finish s' with e | r
    · exact ⟨E, m1, h1, h2, Or.inl h3'⟩
    · exact ⟨E, m1, h1, h2, Or.inl h3'⟩

/-- C118: with `n_processes` the calling process keeps its memory as it is – nothing the objective
counts, stores or collects during the call is there afterwards. -/
theorem C118_lost (cfg : Config n d K) (f : MObj M d K) (home : Home) (fresh : Option M)
    (iters : Nat) (p : Nat) (sched : Nat → List (Nat × Nat)) (env : Nat → Draw n d K)
    (ms : Mems M) (s : Opt n d K) :
    (run cfg f home fresh iters (some (p, sched)) env ms s).1.parent = ms.parent := by
  unfold run
  refine optimizeM_inv cfg _ (Mems.newPool fresh) iters _ env (fun m => m.parent = ms.parent) ?_ ?_
    ms s rfl
  · intro k x m hm
    rw [evaluatorM_parent _ _ _ (fun _ => rfl), hm]
  · intro m hm
    exact hm

/-- C118: with `n_processes` and an objective that is a method of an object keeping the memory, the
whole run is that of the objective with its memory frozen as it was when `optimize` was called. -/
theorem C118_frozen (cfg : Config n d K) (f : MObj M d K) (fresh : Option M)
    (iters : Nat) (p : Nat) (sched : Nat → List (Nat × Nat)) (env : Nat → Draw n d K)
    (ms : Mems M) (s : Opt n d K) :
    (run cfg f .inObject fresh iters (some (p, sched)) env ms s).2 =
      optimize cfg (evaluator (fun _ x => (f ms.parent x).2)
        fun k => some (p, (sched k).map Prod.fst)) iters (some p) env s := by
  unfold run
  have key : ∀ k x (m : Mems M), m.parent = ms.parent →
      (evaluatorM (n := n) f .inObject (fun k => some (p, sched k)) k x m).2 =
        evaluator (fun _ x => (f ms.parent x).2) (fun k => some (p, (sched k).map Prod.fst)) k x := by
    intro k x m hm
    exact (evaluatorM_pool f .inObject p sched (fun a => a = ms.parent)
      (fun x => (f ms.parent x).2) (fun a x ha => by rw [ha]) (fun h => by cases h) k x m
      (fun h => by cases h) (fun _ => hm)).1
  -- the memory is unchanged when the pool is created and by every evaluation
  unfold optimizeM optimize
  by_cases h0 : (some p : Option Nat) = some 0
  · simp only [Option.map_some, if_pos h0]
  · simp only [Option.map_some, if_neg h0, Option.isSome_some, if_true]
    have h2 := loopM_eq cfg (evaluatorM f .inObject fun k => some (p, sched k))
      (evaluator (fun _ x => (f ms.parent x).2) fun k => some (p, (sched k).map Prod.fst)) env iters
      (fun m => m.parent = ms.parent)
      (fun k x m hm => by rw [evaluatorM_parent _ _ _ (fun _ => rfl), hm]) key iters 0 []
      (Mems.newPool fresh ms) { prepare cfg s with openPools := s.openPools + 1 } rfl
    dsimp only at h2 ⊢
    rw [← h2]
    generalize loopM cfg (evaluatorM f .inObject fun k => some (p, sched k)) env iters iters 0 []
      (Mems.newPool fresh ms) _ = X
    rcases X with ⟨m1, s1, e | _⟩
    · rfl
    · dsimp only
      rcases finish s1 with e | r <;> rfl

/-- C118: a memory that does not show in the values – a cache, a counter, a log – changes nothing:
if an invariant `I` of the memory makes every call answer as `f0` does, the run is that of `f0`,
with or without `n_processes`, wherever the memory is kept, whatever the start method, and however
the tasks are distributed. -/
theorem C118_transparent (cfg : Config n d K) (f : MObj M d K) (home : Home) (fresh : Option M)
    (I : M → Prop) (f0 : Objective d K) (hf : ∀ m x, I m → I (f m x).1 ∧ (f m x).2 = f0 x)
    (iters : Nat) (pool : Option (Nat × (Nat → List (Nat × Nat)))) (env : Nat → Draw n d K)
    (ms : Mems M) (hm : I ms.parent) (hfresh : ∀ m, fresh = some m → I m) (s : Opt n d K) :
    (run cfg f home fresh iters pool env ms s).2 =
      optimize cfg (evaluator (fun _ => f0)
        fun k => pool.map fun a => (a.1, (a.2 k).map Prod.fst)) iters (pool.map Prod.fst) env s := by
  unfold run
  rcases pool with _ | ⟨p, sched⟩
  · refine optimizeM_eq cfg _ _ _ iters none env (fun m => I m.parent) ?_ (fun h => by cases h) ?_ ms
      (fun _ => hm) s
    · intro k x m h
      rw [show (fun k => Option.map (fun a : Nat × (Nat → List (Nat × Nat)) => (a.1, a.2 k)) none) =
        fun _ => none from rfl, (evaluatorM_serial f home k x m).1]
      exact (hf _ _ h).1
    · intro k x m h
      rw [show (fun k => Option.map (fun a : Nat × (Nat → List (Nat × Nat)) => (a.1, a.2 k)) none) =
        fun _ => none from rfl, (evaluatorM_serial f home k x m).2, (hf _ _ h).2]
      unfold evaluator computeObjective
      dsimp only [Option.map_none]
      rcases f0 (rowsOf x) with e | l <;> rfl
  · -- the invariant of all memories
    have hpar : ∀ k (x : Mat n d K) (m : Mems M),
        (evaluatorM f home (fun k => some (p, sched k)) k x m).1.parent = m.parent :=
      fun k x m => evaluatorM_parent _ _ _ (fun _ => rfl) k x m
    have hnew : I (Mems.newPool fresh ms).parent ∧ ∀ j, I ((Mems.newPool fresh ms).workers j) := by
      refine ⟨hm, fun j => ?_⟩
      unfold Mems.newPool
      rcases fresh with _ | m
      · exact hm
      · exact hfresh m rfl
    unfold optimizeM optimize
    by_cases h0 : (some p : Option Nat) = some 0
    · simp only [Option.map_some, if_pos h0]
    · simp only [Option.map_some, if_neg h0, Option.isSome_some, if_true]
      have h2 := loopM_eq cfg (evaluatorM f home fun k => some (p, sched k))
        (evaluator (fun _ => f0) fun k => some (p, (sched k).map Prod.fst)) env iters
        (fun m => I m.parent ∧ (home = .inModule → ∀ j, I (m.workers j)))
        (fun k x m h => ⟨by rw [hpar]; exact h.1,
          (evaluatorM_pool f home p sched I f0 (fun m x h => (hf m x h).2)
            (fun _ m x h => (hf m x h).1) k x m h.2 (fun _ => h.1)).2⟩)
        (fun k x m h => (evaluatorM_pool f home p sched I f0 (fun m x h => (hf m x h).2)
            (fun _ m x h => (hf m x h).1) k x m h.2 (fun _ => h.1)).1) iters 0 []
        (Mems.newPool fresh ms) { prepare cfg s with openPools := s.openPools + 1 }
        ⟨hnew.1, fun _ => hnew.2⟩
      dsimp only at h2 ⊢
      rw [← h2]
      generalize loopM cfg (evaluatorM f home fun k => some (p, sched k)) env iters iters 0 []
        (Mems.newPool fresh ms) _ = X
      rcases X with ⟨m1, s1, e | _⟩
      · rfl
      · dsimp only
        rcases finish s1 with e | r <;> rfl

/-- C118: in particular a cached objective that computes each cost from the particle's own position
gives, with any number of processes, the same result and the same optimizer as without. -/
theorem C118_cache (cfg : Config n d K) (f : MObj M d K) (home : Home) (fresh : Option M)
    (I : M → Prop) (g : Vec d K → XR K)
    (hf : ∀ m x, I m → I (f m x).1 ∧ (f m x).2 = .ok (x.map g))
    (iters : Nat) (p : Nat) (hp : 0 < p) (sched : Nat → List (Nat × Nat))
    (hs : ∀ k, IsSchedule ((sched k).map Prod.fst) p) (env : Nat → Draw n d K)
    (ms : Mems M) (hm : I ms.parent) (hfresh : ∀ m, fresh = some m → I m) (s : Opt n d K) :
    (run cfg f home fresh iters (some (p, sched)) env ms s).2.2 =
      (run cfg f home fresh iters none env ms s).2.2 ∧
    { (run cfg f home fresh iters (some (p, sched)) env ms s).2.1 with openPools := 0 } =
      { (run cfg f home fresh iters none env ms s).2.1 with openPools := 0 } := by
  rw [C118_transparent cfg f home fresh I (fun x => .ok (x.map g)) hf iters (some (p, sched)) env ms
    hm hfresh s, C118_transparent cfg f home fresh I (fun x => .ok (x.map g)) hf iters none env ms
    hm hfresh s]
  have h := C30_optimize cfg (fun _ x => .ok (x.map g)) (fun _ => ⟨g, fun _ => rfl⟩) p hp
    (fun k => (sched k).map Prod.fst) hs iters env s
  exact ⟨h.1, h.2.1⟩

theorem budget_calls {B : Nat} {g : Vec d K → XR K} {E : List (Mat n d K × Costs n K)} :
    ∀ {m m' : Nat}, m ≤ B → Calls (budget B g) m E m' → m' = m + E.length ∧ m' ≤ B := by
  induction E with
  | nil => intro m m' hm h; cases h; exact ⟨rfl, hm⟩
  | cons a E ih =>
    intro m m' hm h
    obtain ⟨x, c⟩ := a
    obtain ⟨h1, h2⟩ := h
    unfold budget at h1 h2
    split at h1
    · next hlt =>
      rw [if_pos hlt] at h2
      obtain ⟨h3, h4⟩ := ih (by omega) h2
      exact ⟨by rw [h3, List.length_cons]; omega, h4⟩
    · cases h1

theorem loop_budget (cfg : Config n d K) (B : Nat) (g : Vec d K → XR K) (home : Home)
    (env : Nat → Draw n d K) (iters : Nat) :
    ∀ (k i : Nat) (q : List Bool) (ms : Mems Nat) (s : Opt n d K), ms.parent ≤ B →
      ((loopM cfg (evaluatorM (budget B g) home fun _ => none) env iters k i q ms s).1.parent = B ∧
        (loopM cfg (evaluatorM (budget B g) home fun _ => none) env iters k i q ms s).2.2 =
          .error (.user 0)) ∨
      (loopM cfg (evaluatorM (budget B g) home fun _ => none) env iters k i q ms s).2 =
        loop cfg (evaluator (fun _ x => .ok (x.map g)) fun _ => none) env iters k i q s
  | 0, _, _, _, _, _ => Or.inr rfl
  | k + 1, i, q, ms, s, hB => by
    obtain ⟨h1, h2⟩ :=
      iterateM_snd cfg (evaluatorM (budget B g) home (fun _ => none) i) (env i) iters i q ms s
    have hs := fun x => evaluatorM_serial (n := n) (budget B g) home i x ms
    rcases hB.lt_or_eq with hlt | heq
    · have he : (fun x => (evaluatorM (budget B g) home (fun _ => none) i x ms).2) =
          (evaluator (fun _ x => .ok (x.map g)) (fun _ => none) i :
            Mat n d K → Except Err (Costs n K)) := by
        funext x
        rw [(hs x).2]
        unfold budget evaluator computeObjective
        rw [if_pos hlt]
      rw [he] at h1
      have hp : (iterateM cfg (evaluatorM (budget B g) home (fun _ => none) i) (env i) iters i q ms
          s).1.parent ≤ B := by
        rw [h2, (hs _).1]
        unfold budget
        rw [if_pos hlt]
        exact hlt
      rw [loopM, loop, ← h1]
      rcases hit : iterateM cfg (evaluatorM (budget B g) home (fun _ => none) i) (env i) iters i q ms
        s with ⟨ms', s', e | _ | q'⟩
      · exact Or.inr rfl
      · exact Or.inr rfl
      · rw [hit] at hp
        exact loop_budget cfg B g home env iters k (i + 1) q' ms' s' hp
    · left
      have h3 : iterateM cfg (evaluatorM (budget B g) home (fun _ => none) i) (env i) iters i q ms s =
          ((evaluatorM (budget B g) home (fun _ => none) i s.swarm.position ms).1, s,
            .error (.user 0)) := by
        have h4 := (hs s.swarm.position).2
        unfold budget at h4
        rw [if_neg (by omega)] at h4
        unfold iterateM
        rcases hev : evaluatorM (budget B g) home (fun _ => none) i s.swarm.position ms with
          ⟨ms', e | c⟩ <;> unfold budget at hev <;> rw [hev] at h4 <;> cases h4
        rfl
      rw [loopM, h3]
      refine ⟨?_, rfl⟩
      dsimp only
      rw [(hs _).1]
      unfold budget
      rw [if_neg (by omega)]
      exact heq

/-- C118: a budget, without `n_processes`: the swarm is evaluated at most `B` times and the counter
is the number of evaluations.  Either the budget is used up and `optimize` raises the objective's
exception, after exactly `B` evaluations; or the run is the one without budget. -/
theorem C118_budget (cfg : Config n d K) (B : Nat) (g : Vec d K → XR K) (home : Home)
    (fresh : Option Nat) (iters : Nat) (env : Nat → Draw n d K) (ms : Mems Nat)
    (h0 : ms.parent = 0) (s : Opt n d K)
    (o : Mems Nat × Opt n d K × Except Err (XR K × Vec d K))
    (ho : run cfg (budget B g) home fresh iters none env ms s = o) :
    ∃ E, o.2.1.evals = s.evals ++ E ∧ E.length ≤ B ∧ o.1.parent = E.length ∧
      ((o.2.2 = .error (.user 0) ∧ E.length = B) ∨
        o.2 = optimize cfg (evaluator (fun _ x => .ok (x.map g)) fun _ => none) iters none env s) := by
  obtain ⟨E, m1, h1, h2, h3⟩ := C118_serial cfg (budget B g) home fresh iters env ms s o ho
  rw [h0] at h2
  obtain ⟨h4, h5⟩ := budget_calls (Nat.zero_le _) h2
  rw [Nat.zero_add] at h4
  have hpar : o.1.parent = E.length := by
    rcases h3 with h3 | ⟨e, he, href, h3⟩
    · rw [h3, h4]
    · rw [h3]
      unfold budget
      split
      · next hlt =>
        exfalso
        unfold Refuses budget at href
        rw [if_pos hlt] at href
        rcases href with h | ⟨l, h, hl⟩
        · cases h
        · cases h
          simp [rowsOf] at hl
      · exact h4
  refine ⟨E, h1, by omega, hpar, ?_⟩
  subst ho
  have hb := loop_budget cfg B g home env iters iters 0 [] ms
    { prepare cfg s with openPools := s.openPools + 0 } (by omega)
  revert hpar
  unfold run optimizeM optimize
  rw [if_neg (by simp), if_neg (by simp)]
  simp only [Option.map_none, Option.isSome_none, Bool.false_eq_true, if_false] at hb ⊢
  rcases hb with ⟨hb1, hb2⟩ | hb
  · generalize loopM cfg (evaluatorM (budget B g) home fun _ => none) env iters iters 0 [] ms _ = X
      at hb1 hb2
    rcases X with ⟨ms', s', e | _⟩
    · cases hb2
      intro hpar
      exact Or.inl ⟨rfl, hpar.symm.trans hb1⟩
    · cases hb2
  · rw [← hb]
    generalize loopM cfg (evaluatorM (budget B g) home fun _ => none) env iters iters 0 [] ms _ = X
    intro _
    right
    rcases X with ⟨ms', s', e | _⟩
    · rfl
    · dsimp only
      rcases finish s' with e | r <;> rfl

/-- C118: a budget, with `n_processes` and the counter in an object: it is never used up.  The run is
the one without budget, and the counter is zero afterwards. -/
theorem C118_budget_ignored (cfg : Config n d K) (B : Nat) (hB : 0 < B) (g : Vec d K → XR K)
    (fresh : Option Nat) (iters p : Nat) (hp : 0 < p) (sched : Nat → List (Nat × Nat))
    (hs : ∀ k, IsSchedule ((sched k).map Prod.fst) p) (env : Nat → Draw n d K) (ms : Mems Nat)
    (h0 : ms.parent = 0) (s : Opt n d K) :
    (run cfg (budget B g) .inObject fresh iters (some (p, sched)) env ms s).2.2 =
      (optimize cfg (evaluator (fun _ x => .ok (x.map g)) fun _ => none) iters none env s).2 ∧
    (run cfg (budget B g) .inObject fresh iters (some (p, sched)) env ms s).1.parent = 0 := by
  refine ⟨?_, by rw [C118_lost, h0]⟩
  rw [C118_frozen]
  have h : (fun (_ : Nat) (x : List (Vec d K)) => (budget B g ms.parent x).2) =
      fun _ x => .ok (x.map g) := by
    funext _ x
    unfold budget
    rw [h0, if_pos hB]
  rw [h]
  exact (C30_optimize cfg (fun _ x => .ok (x.map g)) (fun _ => ⟨g, fun _ => rfl⟩) p hp
    (fun k => (sched k).map Prod.fst) hs iters env s).1

end

/-! ## Examples -/

/-- One iteration with two particles, two processes and a counter in the module that allows one call:
does `optimize` return, and with how many evaluations? -/
def tryOnce (sched : List (Nat × Nat)) : Bool × Nat :=
  match construct (Ex.gcfg 2 1) (Ex.init 2 1) (Ex.init 2 1) with
  | .ok s =>
    match run (Ex.gcfg 2 1) (budget 1 fun a : Vec 1 ℚ => XR.fin (a 0)) .inModule none 1
        (some (2, fun _ => sched)) (fun _ => Ex.draw 2 1) ⟨0, fun _ => 0⟩ s with
    | (_, s', .ok _) => (true, s'.evals.length)
    | (_, s', .error _) => (false, s'.evals.length)
  | .error _ => (false, 7)

/-- C118: a memory in the module that does show in the values makes the outcome depend on which
process gets which task: with a budget of one call, the same call of `optimize` returns if the two
chunks go to different workers and raises if one worker gets both. -/
theorem C118_schedule_matters :
    IsSchedule ([(0, 0), (1, 1)].map Prod.fst) 2 ∧ IsSchedule ([(0, 0), (1, 0)].map Prod.fst) 2 ∧
      tryOnce [(0, 0), (1, 1)] = (true, 1) ∧ tryOnce [(0, 0), (1, 0)] = (false, 0) := by
  refine ⟨by decide, by decide, by decide +kernel, by decide +kernel⟩

/-- A serial run of three iterations with a budget of two: two evaluations, then the exception. -/
example : (match construct (Ex.gcfg 2 1) (Ex.init 2 1) (Ex.init 2 1) with
    | .ok s =>
      match run (Ex.gcfg 2 1) (budget 2 fun a : Vec 1 ℚ => XR.fin (a 0)) .inObject none 3 none
          (fun _ => Ex.draw 2 1) ⟨0, fun _ => 0⟩ s with
      | (m, s', .error (.user 0)) => decide (m.parent = 2 ∧ s'.evals.length = 2)
      | _ => false
    | .error _ => false) = true := by decide +kernel

/-- A cache: the memory is a list of positions with their costs, used if the position is there.  The
invariant is that its entries are right. -/
example (g : Vec 1 ℚ → XR ℚ) :
    let look : List (ℚ × XR ℚ) → Vec 1 ℚ → XR ℚ := fun m a => (m.lookup (a 0)).getD (g a)
    let f : MObj (List (ℚ × XR ℚ)) 1 ℚ := fun m x =>
      (x.map (fun a => (a 0, look m a)) ++ m, .ok (x.map (look m)))
    let I : List (ℚ × XR ℚ) → Prop := fun m => ∀ e ∈ m, e.2 = g fun _ => e.1
    I [] ∧ ∀ m x, I m → I (f m x).1 ∧ (f m x).2 = .ok (x.map g) := by
  intro look f I
  have hlook : ∀ m, I m → ∀ a, look m a = g a := by
    intro m hm a
    have ha : (fun _ => a 0) = a := funext fun j => congrArg a (Subsingleton.elim _ _)
    show (m.lookup (a 0)).getD (g a) = g a
    induction m with
    | nil => rfl
    | cons e m ih =>
      rw [List.lookup_cons]
      split
      · next h =>
        have h' : a 0 = e.1 := by simpa using h
        have := hm e List.mem_cons_self
        rw [Option.getD_some, this, ← h', ha]
      · exact ih fun e he => hm e (List.mem_cons_of_mem _ he)
  refine ⟨fun e he => (by cases he), fun m x hm => ⟨?_, ?_⟩⟩
  · intro e he
    rcases List.mem_append.1 he with h | h
    · obtain ⟨a, -, rfl⟩ := List.mem_map.1 h
      have ha : (fun _ => a 0) = a := funext fun j => congrArg a (Subsingleton.elim _ _)
      dsimp only
      rw [hlook m hm a, ha]
    · exact hm e h
  · show Except.ok (x.map (look m)) = _
    congr 1
    exact List.map_congr_left fun a _ => hlook m hm a

end PySwarms.Memo
