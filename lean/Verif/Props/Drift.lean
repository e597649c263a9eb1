import Verif.Props.Bounds
import Verif.Props.Best
import Verif.Props.Search

/-!
# What a velocity clamp does to a run without bounds (C64)
-/

set_option linter.unusedSectionVars false

namespace PySwarms

variable {n d : Nat} {K : Type} [Field K] [LinearOrder K] [IsStrictOrderedRing K] [Transc K]
  [FloorRing K]

/-- Everything visited since the last reset: the evaluated positions, then the current ones. -/
def visited (s : Opt n d K) : List (Mat n d K) := s.evals.map Prod.fst ++ [s.swarm.position]

/-- From `x` to `y` every coordinate `j` changes by something between `lo j` and `hi j`. -/
def ClampedStep (c : Clamp d K) (x y : Mat n d K) : Prop :=
  ∀ i j, c.1 j ≤ y i j - x i j ∧ y i j - x i j ≤ c.2 j

/-- The visited positions form a chain starting at `x0`. -/
def Trail (R : Mat n d K → Mat n d K → Prop) (x0 : Mat n d K) (s : Opt n d K) : Prop :=
  List.IsChain R (visited s) ∧ (visited s).head? = some x0

theorem head?_append_singleton {α : Type} (l : List α) (a b : α) :
    ((l ++ [a]) ++ [b]).head? = (l ++ [a]).head? := by
  cases l <;> simp

/-- Extending the trail: after an evaluation, the current position may be replaced by a successor. -/
theorem trail_extend {R : Mat n d K → Mat n d K → Prop} {x0 : Mat n d K} {s s' : Opt n d K}
    {c : Costs n K} (h : Trail R x0 s) (he : s'.evals = s.evals ++ [(s.swarm.position, c)])
    (hR : R s.swarm.position s'.swarm.position) : Trail R x0 s' := by
  obtain ⟨h1, h2⟩ := h
  have hv : visited s' = visited s ++ [s'.swarm.position] := by
    unfold visited; rw [he]; simp
  unfold Trail
  rw [hv]
  refine ⟨?_, ?_⟩
  · rw [List.isChain_append]
    refine ⟨h1, by simp, ?_⟩
    intro x hx y hy
    simp only [List.head?_cons, Option.mem_def, Option.some.injEq] at hy
    unfold visited at hx
    simp only [List.getLast?_append, List.getLast?_singleton, Option.some_or, Option.mem_def,
      Option.some.injEq] at hx
    rw [← hx, ← hy]; exact hR
  · unfold visited at h2 ⊢
    rw [head?_append_singleton]
    exact h2

theorem trail_iterate {cfg : Config n d K} {R : Mat n d K → Mat n d K → Prop} {x0 : Mat n d K}
    (hrefl : ∀ x, R x x) (ev : Mat n d K → Except Err (Costs n K)) (r : Draw n d K)
    (iters i : Nat) (q : List Bool)
    (hmove : ∀ s : Opt n d K, s.vhMem.isSome →
      R s.swarm.position (moveSwarm cfg r iters i s).1.swarm.position ∧
      (moveSwarm cfg r iters i s).1.vhMem.isSome)
    (s : Opt n d K) (hs : Trail R x0 s ∧ s.vhMem.isSome) :
    Trail R x0 (iterate cfg ev r iters i q s).1 ∧ (iterate cfg ev r iters i q s).1.vhMem.isSome := by
  have hcs := iterate_cases cfg ev r iters i q s
  generalize (iterate cfg ev r iters i q s).1 = s' at hcs ⊢
  generalize (iterate cfg ev r iters i q s).2 = o at hcs
  cases hcs with
  | evalError e h => exact hs
  | gbestError c t e h hg => exact ⟨trail_extend hs.1 rfl (hrefl _), hs.2⟩
  | stop c t g h hg hi hq => exact ⟨trail_extend hs.1 rfl (hrefl _), hs.2⟩
  | moveError c t g s' e h hg hns hm =>
    have h1 := hmove (recordBest t g (recordEval c s)) hs.2
    have h2 := moveSwarm_frame cfg r iters i (recordBest t g (recordEval c s))
    rw [hm] at h1 h2
    refine ⟨trail_extend (c := c) hs.1 ?_ h1.1, h1.2⟩
    have h3 : s'.evals = (recordBest t g (recordEval c s)).evals := by
      simp only at h2; tauto
    rw [h3]; rfl
  | moved c t g s' h hg hns hm =>
    have h1 := hmove (recordBest t g (recordEval c s)) hs.2
    have h2 := moveSwarm_frame cfg r iters i (recordBest t g (recordEval c s))
    rw [hm] at h1 h2
    refine ⟨trail_extend (c := c) hs.1 ?_ h1.1, h1.2⟩
    have h3 : s'.evals = (recordBest t g (recordEval c s)).evals := by
      simp only at h2; tauto
    rw [h3]; rfl

theorem moveSwarm_clampedStep {cfg : Config n d K} {c : Clamp d K} (hk : cfg.kind ≠ .binary)
    (hcb : cfg.bounds = none) (hcc : cfg.clamp = some c) (hc : ∀ j, c.1 j ≤ 0 ∧ 0 ≤ c.2 j)
    (hst : cfg.vhStrategy ≠ "zero") (r : Draw n d K) (iters i : Nat) (s : Opt n d K)
    (h3 : s.vhMem.isSome) :
    ClampedStep c s.swarm.position (moveSwarm cfg r iters i s).1.swarm.position ∧
      (moveSwarm cfg r iters i s).1.vhMem.isSome := by
  have hrefl : ∀ x : Mat n d K, ClampedStep c x x := fun x i j => by simpa using hc j
  obtain ⟨m, hm⟩ := Option.isSome_iff_exists.1 h3
  have hcs := moveSwarm_cases cfg r iters i s
  generalize (moveSwarm cfg r iters i s).1 = s' at hcs ⊢
  generalize (moveSwarm cfg r iters i s).2 = o at hcs
  have hmem : ∀ (o : Opts K) vm (x : Except Err (Mat n d K)), computeVelocity { s.swarm with options := o } cfg.clamp
      cfg.vhStrategy s.vhMem (velBounds cfg) r.r1 r.r2 = (vm, x) → vm.isSome := by
    intro o vm x h
    have := computeVelocity_mem { s.swarm with options := o } cfg.clamp cfg.vhStrategy s.vhMem
      (velBounds cfg) r.r1 r.r2
    rw [h] at this
    rcases this with h | h
    · simp only at h; rw [h]; exact h3
    · simp only at h; rw [h]; rfl
  cases hcs with
  | optError e h => exact ⟨hrefl _, h3⟩
  | velError o vm e h hv => exact ⟨hrefl _, hmem o vm _ hv⟩
  | posError o vm v bm e h hv hp => exact ⟨hrefl _, hmem o vm _ hv⟩
  | ok o vm v bm p h hv hp =>
    refine ⟨?_, hmem o vm _ hv⟩
    have hw : Within c v := by
      obtain ⟨_, _, _, _, _, _, h⟩ := computeVelocity_ok hv
      rw [hcc, hm] at h
      exact vhCall_within hst (fun j => (hc j).1.trans (hc j).2) h
    have hp' : p = fun i j => s.swarm.position i j + v i j := by
      unfold callPosition computePosition at hp
      rw [hcb] at hp
      cases hkk : cfg.kind <;> rw [hkk] at hp
      · simp only [Prod.mk.injEq, Except.ok.injEq] at hp; exact hp.2.symm
      · simp only [Prod.mk.injEq, Except.ok.injEq] at hp; exact hp.2.symm
      · simp only [Prod.mk.injEq, Except.ok.injEq] at hp; exact hp.2.symm
      · exact absurd hkk hk
    intro i j
    simp only [hp', add_sub_cancel_left]
    exact hw i j

/-- C64: without bounds and with a velocity clamp around 0 (any strategy but `zero`), the positions
visited since construction or reset form a chain that starts at the initial positions and in which
no coordinate ever changes by more than the clamp allows – across any number of `optimize` calls,
also when some of them raise. -/
theorem C64_steps (cfg : Config n d K) (c : Clamp d K) (hk : cfg.kind ≠ .binary)
    (hcb : cfg.bounds = none) (hcc : cfg.clamp = some c) (hc : ∀ j, c.1 j ≤ 0 ∧ 0 ≤ c.2 j)
    (hst : cfg.vhStrategy ≠ "zero") (s : Opt n d K) (hf : Fresh cfg s) (ops : List (Op n d K))
    (hops : ∀ op ∈ ops, op.isOptimize) :
    (visited (runOps cfg s ops)).IsChain (ClampedStep c) ∧
      (visited (runOps cfg s ops)).head? = some s.swarm.position := by
  obtain ⟨r, sw, t, a, b, p, hsw, rfl⟩ := fresh_cases cfg s hf
  have hrefl : ∀ x : Mat n d K, ClampedStep c x x := fun x i j => by simpa using hc j
  refine runOps_inv cfg (Trail (ClampedStep c) sw.position) Op.isOptimize (fun s op hop hs => ?_)
    ops hops _ ⟨by simp [visited], by simp [visited]⟩
  cases op with
  | reset r => exact hop.elim
  | optimize ev iters nproc env =>
    refine optimize_inv2 cfg ev iters nproc env (Trail (ClampedStep c) sw.position)
      (fun s => Trail (ClampedStep c) sw.position s ∧ s.vhMem.isSome) ?_ ?_ ?_ ?_ s hs
    · intro s h; exact ⟨h, rfl⟩
    · intro i q s h
      exact trail_iterate hrefl (ev i) (env i) iters i q
        (moveSwarm_clampedStep hk hcb hcc hc hst (env i) iters i) s h
    · intro s x h; exact h.1
    · intro s a b h; exact h

/-- In a chain of clamped steps the `k`-th element is at most `k` clamps away from the first. -/
theorem chain_reach {c : Clamp d K} (l : List (Mat n d K)) (x0 : Mat n d K)
    (h : l.IsChain (ClampedStep c)) (h0 : l.head? = some x0) (k : Nat) (hk : k < l.length)
    (i : Fin n) (j : Fin d) :
    x0 i j + k * c.1 j ≤ l[k] i j ∧ l[k] i j ≤ x0 i j + k * c.2 j := by
  induction k with
  | zero =>
    have : l[0] = x0 := by
      rw [List.head?_eq_getElem?, List.getElem?_eq_getElem hk] at h0
      simpa using h0
    rw [this]; simp
  | succ k ih =>
    have h1 := ih (by omega)
    have h2 := (List.isChain_iff_getElem.1 h k (by omega)) i j
    push_cast
    constructor <;> linarith [h2.1, h2.2, h1.1, h1.2]

/-- C64: hence after `k` evaluations no coordinate is further than `k` times the clamp from where it
started; in particular with `velocity_clamp=(0, 1)` – the default of GridSearch and RandomSearch –
no coordinate ever decreases, and a dimension with clamp `(0, 0)` never changes. -/
theorem C64_reach (cfg : Config n d K) (c : Clamp d K) (hk : cfg.kind ≠ .binary)
    (hcb : cfg.bounds = none) (hcc : cfg.clamp = some c) (hc : ∀ j, c.1 j ≤ 0 ∧ 0 ≤ c.2 j)
    (hst : cfg.vhStrategy ≠ "zero") (s : Opt n d K) (hf : Fresh cfg s) (ops : List (Op n d K))
    (hops : ∀ op ∈ ops, op.isOptimize) (k : Nat) (hkl : k < (runOps cfg s ops).evals.length)
    (i : Fin n) (j : Fin d) :
    s.swarm.position i j + k * c.1 j ≤ (runOps cfg s ops).evals[k].1 i j ∧
      (runOps cfg s ops).evals[k].1 i j ≤ s.swarm.position i j + k * c.2 j := by
  obtain ⟨h1, h2⟩ := C64_steps cfg c hk hcb hcc hc hst s hf ops hops
  have hl : k < (visited (runOps cfg s ops)).length := by unfold visited; simp; omega
  have := chain_reach _ _ h1 h2 k hl i j
  have he : (visited (runOps cfg s ops))[k] = (runOps cfg s ops).evals[k].1 := by
    simp [visited, List.getElem_append, hkl]
  rwa [he] at this

theorem loop_evals_length (cfg : Config n d K) (ev : Nat → Mat n d K → Except Err (Costs n K))
    (env : Nat → Draw n d K) (iters m i : Nat) (q : List Bool) (s : Opt n d K) :
    (loop cfg ev env iters m i q s).1.evals.length ≤ s.evals.length + m := by
  induction m generalizing i q s with
  | zero => simp [loop]
  | succ m ih =>
    have h1 : (iterate cfg (ev i) (env i) iters i q s).1.evals.length ≤ s.evals.length + 1 := by
      have hcs := iterate_cases cfg (ev i) (env i) iters i q s
      generalize (iterate cfg (ev i) (env i) iters i q s).1 = s' at hcs ⊢
      generalize (iterate cfg (ev i) (env i) iters i q s).2 = o at hcs
      cases hcs with
      | evalError e h => omega
      | gbestError c t e h hg => simp [recordEval]
      | stop c t g h hg hi hq => simp [recordBest, recordEval, Opt.populateHistory]
      | moveError c t g s' e h hg hns hm =>
        have h2 := moveSwarm_frame cfg (env i) iters i (recordBest t g (recordEval c s))
        rw [hm] at h2
        have h3 : s'.evals = (recordBest t g (recordEval c s)).evals := by simp only at h2; tauto
        rw [h3]; simp [recordBest, recordEval, Opt.populateHistory]
      | moved c t g s' h hg hns hm =>
        have h2 := moveSwarm_frame cfg (env i) iters i (recordBest t g (recordEval c s))
        rw [hm] at h2
        have h3 : s'.evals = (recordBest t g (recordEval c s)).evals := by simp only at h2; tauto
        rw [h3]; simp [recordBest, recordEval, Opt.populateHistory]
    unfold loop
    split
    · next s' e he => rw [he] at h1; dsimp only at h1 ⊢; omega
    · next s' he => rw [he] at h1; dsimp only at h1 ⊢; omega
    · next s' q' he =>
      rw [he] at h1
      have := ih (i + 1) q' s'
      dsimp only at h1 ⊢
      omega

/-- C64, hyperparameter search: with the default clamp and no bounds, the score of any combination of
GlobalBestPSO hyperparameters is the objective's value at a particle all of whose coordinates are in
`[0, iters)` – whatever the objective is, nothing outside that box is ever tried. -/
theorem C64_search (hn : 0 < n) (cfg : Config n d K) (hk : cfg.kind = .globalBest)
    (hcb : cfg.bounds = none) (hcc : cfg.clamp = some (fun _ => 0, fun _ => 1))
    (hctr : cfg.center = fun _ => 1) (hinit : cfg.initPos = none) (hst : cfg.vhStrategy ≠ "zero")
    (ev : Nat → Mat n d K → Except Err (Costs n K)) (iters : Nat) (r1 r2 : InitDraw n d K)
    (hr : r2.Legal) (env : Nat → Draw n d K) (c : XR K)
    (h : generateScore cfg ev iters r1 r2 env = .ok c) :
    ∃ k x costs i, k < iters ∧ ev k x = .ok costs ∧ costs i = c ∧
      ∀ j, 0 ≤ x i j ∧ x i j < (iters : K) := by
  unfold generateScore at h
  split at h
  · cases h
  · next s hs =>
    split at h
    · cases h
    · next c' p ho =>
      cases h
      have hF : Fresh cfg s := Or.inl ⟨r1, r2, hs⟩
      have ho' : optimize cfg ev iters none env s =
          ((optimize cfg ev iters none env s).1, .ok (c, p)) := by
        rw [← ho]
      obtain ⟨hlog, ⟨e, he, i, hei, hec⟩, -⟩ := C05_first_call hn cfg (by rw [hk]; trivial) s hF ev
        iters none env _ c p ho'
      obtain ⟨sw, hsw, rfl⟩ := construct_ok cfg r1 r2 s hs
      have hx0 : ∀ i j, 0 ≤ sw.position i j ∧ sw.position i j < 1 := by
        intro i j
        unfold resetSwarm createSwarm at hsw
        have hb : cfg.isBinary = false := by unfold Config.isBinary; rw [hk]
        simp only [hb, hcb, hinit, hctr, generateSwarm] at hsw
        cases hsw
        have := hr.1 i j
        unfold Unit01 at this
        simpa [mkSwarm] using this
      have hlen : (optimize cfg ev iters none env { swarm := sw }).1.evals.length ≤ iters := by
        obtain ⟨s1, hl, hs', -⟩ := optimize_ok cfg ev iters none env { swarm := sw } _ c p ho'
        have := loop_evals_length cfg ev env iters iters 0 []
          (startState cfg none ({ swarm := sw } : Opt n d K))
        rw [hl] at this
        rw [hs']
        simpa [startState, prepare] using this
      obtain ⟨k, hkl, rfl⟩ := List.getElem_of_mem he
      have hrun : runOps cfg ({ swarm := sw } : Opt n d K) [.optimize ev iters none env] =
          (optimize cfg ev iters none env { swarm := sw }).1 := rfl
      have hkk : cfg.kind ≠ .binary := by rw [hk]; simp
      have hreach := fun j => C64_reach cfg _ hkk hcb hcc (fun j => ⟨le_refl _, zero_le_one⟩) hst
        { swarm := sw } hF [.optimize ev iters none env] (by simp [Op.isOptimize]) k
        (by rw [hrun]; exact hkl) i j
      simp only [hrun] at hreach
      have hev := hlog k hkl
      refine ⟨k, _, _, i, by omega, hev, hec, fun j => ?_⟩
      have h1 := hreach j
      have h2 := hx0 i j
      have h3 : (k : K) + 1 ≤ iters := by exact_mod_cast (by omega : k + 1 ≤ iters)
      constructor
      · linarith [h1.1, h2.1]
      · linarith [h1.2, h2.2]

/-- Non-vacuity: a search-like configuration whose minimum (at `-3`) is out of reach; the score is
the one of the starting point. -/
example : (match generateScore { Ex.gcfg 2 1 with
        center := fun _ => 1, clamp := some (fun _ => 0, fun _ => 1) }
      (fun _ (x : Mat 2 1 ℚ) => .ok fun i => .fin ((x i 0 + 3) * (x i 0 + 3))) 3
      (Ex.init 2 1) (Ex.init 2 1) (fun _ => Ex.draw 2 1) with
    | .ok c => decide (c = .fin 9)
    | _ => false) = true := by decide +kernel

/-- … and the swarm does move: after two iterations the first coordinate has grown by the clamp at
most. -/
example : (match construct { Ex.gcfg 2 1 with
        center := fun _ => 1, clamp := some (fun _ => 0, fun _ => 1) } (Ex.init 2 1) (Ex.init 2 1) with
    | .ok s => decide (((runOps { Ex.gcfg 2 1 with
        center := fun _ => 1, clamp := some (fun _ => 0, fun _ => 1) } s
        [.optimize (Ex.sphere 2 1) 3 none fun _ => Ex.draw 2 1]).evals.map fun e => e.1 0 0) =
          [0, 1 / 4, 13 / 48])
    | _ => false) = true := by decide +kernel

end PySwarms
