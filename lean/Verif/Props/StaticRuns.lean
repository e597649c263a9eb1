import Verif.Props.Topology
import Verif.Lemmas.Star
import Verif.Props.Reset
import Verif.Examples

/-! C11 for whole optimizers: LocalBestPSO(static=…), GeneralOptimizerPSO(topology=…), BinaryPSO. -/

set_option linter.unusedSectionVars false

namespace PySwarms

variable {n d : Nat} {K : Type} [Field K] [LinearOrder K] [Transc K] [FloorRing K]

/-- An iteration of an optimizer with a static topology keeps the neighbours it has. -/
theorem iterate_static (cfg : Config n d K)
    (hk : cfg.kind = .localBest true ∨ ∃ top, cfg.kind = .general top ∧ top.isStatic = true ∧
      (top = .pyramid true → d + 1 ≤ n))
    (ev : Mat n d K → Except Err (Costs n K)) (r : Draw n d K) (iters i : Nat) (q : List Bool)
    (s : Opt n d K) (nbr : Fin n → List (Fin n)) (hs : s.top.neighbor = some nbr) :
    (iterate cfg ev r iters i q s).1.top.neighbor = some nbr := by
  have hg : ∀ (o : Oracle n d K) (t : TopState n) (sw : Swarm n d K), t.neighbor = some nbr →
      (callGbest cfg o t sw).1.neighbor = some nbr := by
    intro o t sw ht
    unfold callGbest
    rcases hk with hk | ⟨top, hk, h1, h2⟩
    · rw [hk]
      exact static_step (.ring true) rfl (fun h => by cases h) _ o t nbr ht sw
    · rw [hk]
      exact static_step top h1 h2 _ o t nbr ht sw
  have hc := iterate_cases cfg ev r iters i q s
  have hr : ∀ c : Costs n K, (recordEval c s).top.neighbor = some nbr := fun _ => hs
  generalize (iterate cfg ev r iters i q s).1 = s' at hc ⊢
  generalize (iterate cfg ev r iters i q s).2 = f at hc
  cases hc with
  | evalError e h => exact hs
  | gbestError c t e h hg' =>
    have := hg r.oracle _ (recordEval c s).swarm (hr c)
    rw [hg'] at this
    exact this
  | stop c t g h hg' _ _ =>
    have := hg r.oracle _ (recordEval c s).swarm (hr c)
    rw [hg'] at this
    exact this
  | moveError c t g s' e h hg' _ hm =>
    have := hg r.oracle _ (recordEval c s).swarm (hr c)
    rw [hg'] at this
    have hf := moveSwarm_frame cfg r iters i (recordBest t g (recordEval c s))
    rw [hm] at hf
    simp only at hf
    rw [hf.2.2.2.2.2.1]
    exact this
  | moved c t g s' h hg' _ hm =>
    have := hg r.oracle _ (recordEval c s).swarm (hr c)
    rw [hg'] at this
    have hf := moveSwarm_frame cfg r iters i (recordBest t g (recordEval c s))
    rw [hm] at hf
    simp only at hf
    rw [hf.2.2.2.2.2.1]
    exact this

/-- **C11** (optimizers, static).  `LocalBestPSO(static=True)`, and `GeneralOptimizerPSO` with a
static topology object: once an iteration has fixed the neighbours, every history of `optimize` and
`reset` calls, raising or not, keeps exactly these neighbours, however the particles move. -/
theorem C11_optimizer_static (cfg : Config n d K)
    (hk : cfg.kind = .localBest true ∨ ∃ top, cfg.kind = .general top ∧ top.isStatic = true ∧
      (top = .pyramid true → d + 1 ≤ n))
    (s : Opt n d K) (nbr : Fin n → List (Fin n)) (hs : s.top.neighbor = some nbr)
    (ops : List (Op n d K)) : (runOps cfg s ops).top.neighbor = some nbr := by
  have hstep : ∀ (s : Opt n d K) (op : Op n d K), s.top.neighbor = some nbr →
      (stepOp cfg s op).top.neighbor = some nbr := by
    intro s op hs
    cases op with
    | reset r =>
      simp only [stepOp, reset]
      split <;> exact hs
    | optimize ev iters nproc env =>
      exact optimize_inv cfg ev iters nproc env (fun s => s.top.neighbor = some nbr)
        (fun _ _ _ _ h => h) (fun _ h => h)
        (fun i q s hs => iterate_static cfg hk (ev i) (env i) iters i q s nbr hs) s hs
  induction ops generalizing s with
  | nil => exact hs
  | cons op ops ih => exact ih _ (hstep s op hs)

/-- The class uses a `Ring` topology, static or not as given; its `k` and `p` come from the options
(local_best.py:239-242, binary.py:202-205) or from the keyword arguments (general_optimizer.py:252). -/
def Kind.UsesRing (st : Bool) (k : Kind) : Prop :=
  k = .localBest st ∨ k = .general (.ring st) ∨ (st = false ∧ k = .binary)

/-- An iteration which does not raise, with a dynamic ring or with no neighbours yet, evaluates the
position and computes the neighbours from it. -/
theorem iterate_ring_neighbor (cfg : Config n d K) (st : Bool) (hk : cfg.kind.UsesRing st)
    (ev : Mat n d K → Except Err (Costs n K)) (r : Draw n d K) (iters i : Nat) (q : List Bool)
    (s s' : Opt n d K) (f : Flow) (ht : st = false ∨ s.top.neighbor = none)
    (h : iterate cfg ev r iters i q s = (s', .ok f)) :
    ∃ c k p, ev s.swarm.position = .ok c ∧ s'.evals = s.evals ++ [(s.swarm.position, c)] ∧
      cfg.args.k = some k ∧ cfg.args.p = some p ∧
      s'.top.neighbor = some (r.oracle.knn k p s.swarm.position) := by
  have hg : ∀ (c : Costs n K) (t : TopState n) (g : GBest n d K),
      callGbest cfg r.oracle (recordEval c s).top (recordEval c s).swarm = (t, .ok g) →
      ∃ k p, cfg.args.k = some k ∧ cfg.args.p = some p ∧
        t.neighbor = some (r.oracle.knn k p s.swarm.position) := by
    intro c t g hg
    have ht' : st = false ∨ (recordEval c s).top.neighbor = none := ht
    unfold callGbest at hg
    rcases hk with hk | hk | ⟨h0, hk⟩
    · rw [hk] at hg
      exact C11_uses_current_positions (.ring st) _ _ t ht' _ _ g hg
    · rw [hk] at hg
      exact C11_uses_current_positions (.ring st) _ _ t ht' _ _ g hg
    · rw [hk] at hg
      exact C11_uses_current_positions (.ring false) _ _ t (.inl rfl) _ _ g hg
  have hc := iterate_cases cfg ev r iters i q s
  rw [h] at hc
  simp only at hc
  cases hc with
  | stop c t g h1 hg' _ _ =>
    obtain ⟨k, p, hk, hp, hn⟩ := hg c t g hg'
    exact ⟨c, k, p, h1, rfl, hk, hp, hn⟩
  | moved c t g s' h1 hg' _ hm =>
    obtain ⟨k, p, hk, hp, hn⟩ := hg c t g hg'
    have hf := moveSwarm_frame cfg r iters i (recordBest t g (recordEval c s))
    rw [hm] at hf
    simp only at hf
    refine ⟨c, k, p, h1, ?_, hk, hp, ?_⟩
    · rw [hf.2.2.2.2.2.2.2.2.2.2.2.1]; rfl
    · rw [hf.2.2.2.2.2.1]; exact hn

theorem loop_ring_neighbor (cfg : Config n d K) (hk : cfg.kind.UsesRing false)
    (ev : Nat → Mat n d K → Except Err (Costs n K)) (env : Nat → Draw n d K) (iters : Nat)
    (m i : Nat) (hm : 0 < m) (q : List Bool) (s s' : Opt n d K)
    (h : loop cfg ev env iters m i q s = (s', .ok ())) :
    ∃ E x c k p, s'.evals = s.evals ++ E ++ [(x, c)] ∧ cfg.args.k = some k ∧ cfg.args.p = some p ∧
      s'.top.neighbor = some ((env (i + E.length)).oracle.knn k p x) := by
  induction m generalizing i q s with
  | zero => omega
  | succ m ih =>
    unfold loop at h
    split at h
    · cases h
    · next s1 he =>
      obtain ⟨c, k, p, -, h2, h3, h4, h5⟩ :=
        iterate_ring_neighbor cfg false hk (ev i) (env i) iters i q s s1 _ (.inl rfl) he
      cases h
      exact ⟨[], _, c, k, p, by simpa using h2, h3, h4, h5⟩
    · next s1 q1 he =>
      obtain ⟨c, k, p, -, h2, h3, h4, h5⟩ :=
        iterate_ring_neighbor cfg false hk (ev i) (env i) iters i q s s1 _ (.inl rfl) he
      rcases Nat.eq_zero_or_pos m with h0 | h0
      · subst h0
        cases h
        exact ⟨[], _, c, k, p, by simpa using h2, h3, h4, h5⟩
      · obtain ⟨E, x, c', k', p', e1, e2, e3, e4⟩ := ih (i + 1) h0 q1 s1 h
        refine ⟨(s.swarm.position, c) :: E, x, c', k', p', ?_, e2, e3, ?_⟩
        · rw [e1, h2]; simp
        · rw [e4]; simp only [List.length_cons]; rw [show i + 1 + E.length = i + (E.length + 1) by omega]

/-- **C11** (optimizers, dynamic).  With `LocalBestPSO(static=False)`, `BinaryPSO` or
`GeneralOptimizerPSO` with a dynamic `Ring`, after a call of `optimize` of at least one iteration
the neighbours are the k nearest neighbours, as answered by the k-d tree of the last iteration, of
the positions evaluated last, whatever neighbours the object had before. -/
theorem C11_optimizer_dynamic (cfg : Config n d K)
    (hk : cfg.kind = .localBest false ∨ cfg.kind = .general (.ring false) ∨ cfg.kind = .binary)
    (ev : Nat → Mat n d K → Except Err (Costs n K)) (iters : Nat) (hi : 0 < iters)
    (nproc : Option Nat) (env : Nat → Draw n d K) (s s' : Opt n d K) (r : XR K × Vec d K)
    (h : optimize cfg ev iters nproc env s = (s', .ok r)) :
    ∃ E x c k p, s'.evals = s.evals ++ E ++ [(x, c)] ∧ cfg.args.k = some k ∧ cfg.args.p = some p ∧
      s'.top.neighbor = some ((env E.length).oracle.knn k p x) := by
  have hk' : cfg.kind.UsesRing false := by
    rcases hk with hk | hk | hk
    · exact .inl hk
    · exact .inr (.inl hk)
    · exact .inr (.inr ⟨rfl, hk⟩)
  obtain ⟨s1, hl, hs', -, -⟩ := optimize_ok cfg ev iters nproc env s s' r.1 r.2 h
  obtain ⟨E, x, c, k, p, h1, h2, h3, h4⟩ := loop_ring_neighbor cfg hk' ev env iters iters 0 hi [] _ s1 hl
  refine ⟨E, x, c, k, p, by rw [hs']; exact h1, h2, h3, ?_⟩
  rw [hs']
  simpa using h4

/-- **C11** (optimizers, first call).  With `LocalBestPSO(static=True)` or a static `Ring` whose
object has not been used before, a call of at least one iteration which returns fixes the nearest
neighbours of the very first positions evaluated. -/
theorem C11_optimizer_first (cfg : Config n d K)
    (hk : cfg.kind = .localBest true ∨ cfg.kind = .general (.ring true))
    (ev : Nat → Mat n d K → Except Err (Costs n K)) (iters : Nat) (hi : 0 < iters)
    (nproc : Option Nat) (env : Nat → Draw n d K) (s s' : Opt n d K) (r : XR K × Vec d K)
    (h0 : s.top.neighbor = none) (h : optimize cfg ev iters nproc env s = (s', .ok r)) :
    ∃ k p, cfg.args.k = some k ∧ cfg.args.p = some p ∧
      s'.top.neighbor = some ((env 0).oracle.knn k p s.swarm.position) := by
  have hk' : cfg.kind.UsesRing true := by
    rcases hk with hk | hk
    · exact .inl hk
    · exact .inr (.inl hk)
  have hk2 : cfg.kind = .localBest true ∨ ∃ top, cfg.kind = .general top ∧ top.isStatic = true ∧
      (top = .pyramid true → d + 1 ≤ n) := by
    rcases hk with hk | hk
    · exact .inl hk
    · exact .inr ⟨_, hk, rfl, fun h => by cases h⟩
  obtain ⟨s1, hl, hs', -, -⟩ := optimize_ok cfg ev iters nproc env s s' r.1 r.2 h
  obtain ⟨m, rfl⟩ : ∃ m, iters = m + 1 := ⟨iters - 1, by omega⟩
  rw [hs']
  show ∃ k p, _ ∧ _ ∧ s1.top.neighbor = _
  unfold loop at hl
  split at hl
  · cases hl
  · next s2 he =>
    obtain ⟨c, k, p, -, -, h3, h4, h5⟩ := iterate_ring_neighbor cfg true hk' (ev 0) (env 0) _ 0 []
      (startState cfg nproc s) s2 _ (.inr h0) he
    cases hl
    exact ⟨k, p, h3, h4, h5⟩
  · next s2 q2 he =>
    obtain ⟨c, k, p, -, -, h3, h4, h5⟩ := iterate_ring_neighbor cfg true hk' (ev 0) (env 0) _ 0 []
      (startState cfg nproc s) s2 _ (.inr h0) he
    have := loop_inv cfg ev env (m + 1) (fun s => s.top.neighbor = _)
      (fun i q s hs => iterate_static cfg hk2 (ev i) (env i) (m + 1) i q s _ hs) m (0 + 1) q2 s2 h5
    rw [hl] at this
    exact ⟨k, p, h3, h4, this⟩

/-- Neighbours after `m` iterations of `LocalBestPSO(static=st)` with three particles
on a line (no code of its own). -/
def Ex.ringRun (st : Bool) (m : Nat) : Bool × List (List (Fin 3)) :=
  match construct (Ex.rcfg 3 1 st 2) (Ex.init3 0 (1/4) (3/4)) (Ex.init3 0 (2/5) (3/4)) with
  | .ok s =>
    match optimize (Ex.rcfg 3 1 st 2) (fun _ _ => .ok fun i => .fin (if i = 0 then 1 else 0)) m none
      (fun _ => Ex.lineDraw 3) s with
    | (s', .ok _) => (s.top.neighbor.isNone,
        match s'.top.neighbor with
        | some nbr => (List.finRange 3).map nbr
        | none => [])
    | _ => (false, [])
  | _ => (false, [])

-- The three theorems are about runs that return; the static and the dynamic ring start with the same
-- neighbours and have different ones later, because the particles move.
example : (Ex.ringRun true 1).1 = true ∧ Ex.ringRun true 1 = Ex.ringRun false 1 ∧
    Ex.ringRun true 2 = Ex.ringRun true 1 ∧ Ex.ringRun false 2 ≠ Ex.ringRun false 1 := by
  decide +kernel

end PySwarms
