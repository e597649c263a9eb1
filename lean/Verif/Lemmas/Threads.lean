import Verif.Model.Threads
import Verif.Props.SeedHistory

/-! Lemmas about programs that ask for random values. -/

set_option linter.unusedSectionVars false

namespace PySwarms

variable {n d : Nat} {K G α β : Type}

theorem Prog.run_bind (rng : Rng n d K G) (p : Prog n d K α) (f : α → Prog n d K β) (g : G) :
    (p.bind f).run rng g = (f (p.run rng g).2).run rng (p.run rng g).1 := by
  induction p generalizing g with
  | done a => rfl
  | real k ih => exact ih _ _
  | bits k ih => exact ih _ _
  | choice m i k ih => exact ih _ _

theorem famP_run (rng : Rng n d K G) (m : Nat) (next : Fin m → Prog n d K α)
    (nextG : Fin m → G → α × G) (h : ∀ i g, (next i).run rng g = ((nextG i g).2, (nextG i g).1))
    (g : G) :
    (famP m next).run rng g = ((sampleFam m nextG g).2, (sampleFam m nextG g).1) := by
  induction m generalizing g with
  | zero => rfl
  | succ m ih =>
    rw [famP, Prog.run_bind, h 0, Prog.run_bind, ih _ (fun i => nextG i.succ) (fun i g => h _ g)]
    rfl

theorem vecP_run (rng : Rng n d K G) (g : G) :
    (vecP : Prog n d K _).run rng g = ((sampleVec rng g).2, (sampleVec rng g).1) :=
  famP_run rng d _ _ (fun _ _ => rfl) g

theorem matP_run (rng : Rng n d K G) (g : G) :
    (matP : Prog n d K _).run rng g = ((sampleMat rng g).2, (sampleMat rng g).1) :=
  famP_run rng n _ _ (fun _ g => vecP_run rng g) g

section
variable [Field K] [LinearOrder K]

theorem resetSwarmP_run (cfg : Config n d K) (rng : Rng n d K G) (g : G) :
    (resetSwarmP cfg).run rng g = resetSwarmG cfg rng g := by
  unfold resetSwarmP resetSwarmG
  dsimp only
  cases cfg.isBinary with
  | true =>
    cases cfg.initPos with
    | some p =>
      simp only [if_true]
      rw [Prog.run_bind]
      simp only [Prog.run]
      cases generateDiscreteSwarm true (some p) (fun _ _ => false) (fun (_ : Fin n) (j : Fin d) => j)
      · rfl
      · dsimp only
        rw [Prog.run_bind, matP_run]
        rfl
    | none =>
      simp only [if_true]
      rw [Prog.run_bind]
      simp only [Prog.run]
      cases (generateDiscreteSwarm true none (rng.bits g).1 (fun (_ : Fin n) (j : Fin d) => j) :
        Except Err (Mat n d K))
      · rfl
      · dsimp only
        rw [Prog.run_bind, matP_run]
        rfl
  | false =>
    cases cfg.initPos with
    | some p =>
      simp only [Bool.false_eq_true, if_false]
      rw [Prog.run_bind]
      simp only [Prog.run]
      cases generateSwarm cfg.bounds cfg.center (some p) (fun _ _ => 0)
      · rfl
      · dsimp only
        rw [Prog.run_bind, matP_run]
        rfl
    | none =>
      simp only [Bool.false_eq_true, if_false]
      rw [Prog.run_bind, Prog.run_bind, matP_run]
      simp only [Prog.run]
      cases generateSwarm cfg.bounds cfg.center none (sampleMat rng g).1
      · rfl
      · dsimp only
        rw [Prog.run_bind, matP_run]
        rfl

theorem resetP_run (cfg : Config n d K) (rng : Rng n d K G) (g : G) (s : Opt n d K) :
    (resetP cfg s).run rng g = resetG cfg rng g s := by
  unfold resetP resetG
  dsimp only
  rw [Prog.run_bind, resetSwarmP_run]
  generalize resetSwarmG cfg rng g = out
  obtain ⟨g1, e | sw⟩ := out <;> rfl

theorem constructP_run (cfg : Config n d K) (rng : Rng n d K G) (g : G) :
    (constructP cfg).run rng g = constructG cfg rng g := by
  unfold constructP constructG
  split
  · rfl
  · cases checkFtolIter cfg.ftolIter with
    | error e => rfl
    | ok u =>
      dsimp only
      rw [Prog.run_bind, resetSwarmP_run]
      generalize resetSwarmG cfg rng g = out
      obtain ⟨g1, e | sw⟩ := out
      · rfl
      · dsimp only
        rw [Prog.run_bind, resetSwarmP_run]
        generalize resetSwarmG cfg rng g1 = out
        obtain ⟨g1, e | sw⟩ := out <;> rfl

theorem callGbestP_run (cfg : Config n d K) (rng : Rng n d K G) (ext : Libs n d K) (g : G)
    (t : TopState n) (s : Swarm n d K) :
    (callGbestP cfg ext t s).run rng g = callGbestG cfg rng ext g t s := by
  unfold callGbestP callGbestG
  cases drawsChoices cfg t.neighbor.isNone with
  | none => rfl
  | some k =>
    dsimp only
    rw [Prog.run_bind, famP_run rng n _ (rng.choice k) (fun _ _ => rfl)]
    rfl

theorem computeVelocityP_run (cfg : Config n d K) (rng : Rng n d K G) (g : G) (s : Swarm n d K)
    (mem : Option (Mat n d K)) (bounds : Option (Bounds d K)) :
    (computeVelocityP cfg s mem bounds).run rng g = computeVelocityG cfg rng g s mem bounds := by
  unfold computeVelocityP computeVelocityG
  cases s.options.lookup "c1" with
  | none => rfl
  | some a =>
    cases s.options.lookup "c2" with
    | none => rfl
    | some b =>
      cases s.options.lookup "w" with
      | none => rfl
      | some c =>
        dsimp only
        rw [Prog.run_bind, matP_run, Prog.run_bind, matP_run]
        rfl

variable [Transc K] [FloorRing K]

theorem callPositionP_run (cfg : Config n d K) (rng : Rng n d K G) (ext : Libs n d K) (g : G)
    (mem : Option (Mat n d K)) (s : Swarm n d K) :
    (callPositionP cfg ext mem s).run rng g = callPositionG cfg rng ext g mem s := by
  have hother : (if cfg.bounds.isSome && decide (cfg.bhStrategy = "random") then
      vecP.bind fun u => vecP.bind fun l =>
        .done (computePosition s cfg.bounds cfg.bhStrategy mem ⟨u, l, ext.passes⟩)
    else
      (.done (computePosition s cfg.bounds cfg.bhStrategy mem
        ⟨fun _ => 0, fun _ => 0, ext.passes⟩) : Prog n d K _)).run rng g =
      (if cfg.bounds.isSome && decide (cfg.bhStrategy = "random") then
      let u := sampleVec rng g
      let l := sampleVec rng u.2
      (l.2, computePosition s cfg.bounds cfg.bhStrategy mem ⟨u.1, l.1, ext.passes⟩)
    else
      (g, computePosition s cfg.bounds cfg.bhStrategy mem
        ⟨fun _ => 0, fun _ => 0, ext.passes⟩)) := by
    split
    · rw [Prog.run_bind, vecP_run, Prog.run_bind, vecP_run]
      rfl
    · rfl
  unfold callPositionP callPositionG
  cases cfg.kind with
  | binary =>
    dsimp only
    rw [Prog.run_bind, vecP_run]
    rfl
  | globalBest => exact hother
  | localBest st => exact hother
  | general t => exact hother

theorem moveSwarmP_run (cfg : Config n d K) (rng : Rng n d K G) (ext : Libs n d K) (iters i : Nat)
    (g : G) (s : Opt n d K) :
    (moveSwarmP cfg ext iters i s).run rng g = moveSwarmG cfg rng ext iters i g s := by
  unfold moveSwarmP moveSwarmG
  cases callOptionsG cfg iters i s.swarm with
  | error e => rfl
  | ok o =>
    dsimp only
    rw [Prog.run_bind, computeVelocityP_run]
    generalize computeVelocityG cfg rng g _ _ _ = out
    obtain ⟨g1, vm, e | v⟩ := out
    · rfl
    · dsimp only
      rw [Prog.run_bind, callPositionP_run]
      generalize callPositionG cfg rng ext g1 _ _ = out
      obtain ⟨g2, bm, e | p⟩ := out <;> rfl

theorem iterateP_run (cfg : Config n d K) (ev : ObjP n d K) (rng : Rng n d K G) (ext : Libs n d K)
    (iters i : Nat) (q : List Bool) (g : G) (s : Opt n d K) :
    (iterateP cfg ev ext iters i q s).run rng g =
      iterateG cfg (fun x g => (ev x).run rng g) rng ext iters i q g s := by
  unfold iterateP iterateG
  rw [Prog.run_bind]
  dsimp only
  generalize (ev s.swarm.position).run rng g = out
  obtain ⟨g1, e | c⟩ := out
  · rfl
  · dsimp only
    rw [Prog.run_bind, callGbestP_run]
    generalize callGbestG cfg rng ext g1 _ _ = out
    obtain ⟨g2, t, e | b⟩ := out
    · rfl
    · dsimp only
      split
      · rfl
      · rw [Prog.run_bind, moveSwarmP_run]
        generalize moveSwarmG cfg rng ext iters i g2 _ = out
        obtain ⟨g3, s3, e | u⟩ := out <;> rfl

theorem loopP_run (cfg : Config n d K) (ev : Nat → ObjP n d K) (rng : Rng n d K G)
    (ext : Libs n d K) (iters m i : Nat) (q : List Bool) (g : G) (s : Opt n d K) :
    (loopP cfg ev ext iters m i q s).run rng g =
      loopG cfg (fun t x g => (ev t x).run rng g) rng ext iters m i q g s := by
  induction m generalizing i q g s with
  | zero => rfl
  | succ m ih =>
    rw [loopP, loopG, Prog.run_bind, iterateP_run]
    generalize iterateG cfg _ rng ext iters i q g s = out
    obtain ⟨g1, s1, e | f⟩ := out
    · rfl
    · cases f with
      | stop => rfl
      | «continue» q' => exact ih _ _ _ _

theorem optimizeP_run (cfg : Config n d K) (ev : Nat → ObjP n d K) (rng : Rng n d K G)
    (ext : Libs n d K) (iters : Nat) (nproc : Option Nat) (g : G) (s : Opt n d K) :
    (optimizeP cfg ev ext iters nproc s).run rng g =
      optimizeG cfg (fun t x g => (ev t x).run rng g) rng ext iters nproc g s := by
  unfold optimizeP optimizeG
  split
  · rfl
  · dsimp only
    rw [Prog.run_bind, loopP_run]
    generalize loopG cfg _ rng ext iters iters 0 [] g _ = out
    obtain ⟨g1, s1, e | u⟩ := out
    · rfl
    · dsimp only
      cases finish s1 <;> rfl

end

/-! ## Pools -/

theorem Prog.run_next (rng : Rng n d K G) (p : Prog n d K α) (g : G) :
    (p.next rng g).2.run rng (p.next rng g).1 = p.run rng g := by
  cases p <;> rfl

/-- The generator as seen by one thread: its `k`-th request is answered in the state `γ k`. -/
def Rng.turns (rng : Rng n d K G) (γ : Nat → G) : Rng n d K Nat where
  real := fun k => ((rng.real (γ k)).1, k + 1)
  bits := fun k => ((rng.bits (γ k)).1, k + 1)
  choice := fun m i k => ((rng.choice m i (γ k)).1, k + 1)

theorem Prog.run_shift (rng : Rng n d K G) (γ : Nat → G) (p : Prog n d K α) (k : Nat) :
    (p.run (rng.turns γ) (k + 1)).2 = (p.run (rng.turns fun k => γ (k + 1)) k).2 := by
  induction p generalizing k with
  | done a => rfl
  | real f ih => exact ih _ _
  | bits f ih => exact ih _ _
  | choice m i f ih => exact ih _ _

variable {ι : Type} [DecidableEq ι] {N D : ι → Nat} {A : ι → Type}

theorem Pool.step_other (rng : (t : ι) → Rng (N t) (D t) K G) (P : Pool ι N D A K G) {t u : ι}
    (h : t ≠ u) : (P.step rng u).prog t = P.prog t :=
  Function.update_of_ne h _ _

theorem Pool.step_self (rng : (t : ι) → Rng (N t) (D t) K G) (P : Pool ι N D A K G) (t : ι) :
    (P.step rng t).prog t = ((P.prog t).next (rng t) P.gen).2 :=
  Function.update_self _ _ _

/-- What a finished thread computed is what it computes alone, with some states of the generator at
its requests. -/
theorem Pool.run_turns (rng : (t : ι) → Rng (N t) (D t) K G) (sched : List ι)
    (P : Pool ι N D A K G) (t : ι) (a : A t) (h : (P.run rng sched).prog t = .done a) :
    ∃ γ, ((P.prog t).run ((rng t).turns γ) 0).2 = a := by
  induction sched generalizing P with
  | nil =>
    have h : P.prog t = .done a := h
    exact ⟨fun _ => P.gen, by rw [h]; rfl⟩
  | cons u sched ih =>
    obtain ⟨γ, hγ⟩ := ih (P.step rng u) h
    by_cases hu : t = u
    · subst hu
      rw [Pool.step_self] at hγ
      refine ⟨fun k => match k with | 0 => P.gen | k + 1 => γ k, ?_⟩
      cases hp : P.prog t with
      | done b => rw [hp] at hγ; exact hγ
      | real k =>
        rw [hp] at hγ
        rw [← hγ]
        exact Prog.run_shift (rng t) _ _ 0
      | bits k =>
        rw [hp] at hγ
        rw [← hγ]
        exact Prog.run_shift (rng t) _ _ 0
      | choice m i k =>
        rw [hp] at hγ
        rw [← hγ]
        exact Prog.run_shift (rng t) _ _ 0
    · rw [Pool.step_other rng P hu] at hγ
      exact ⟨γ, hγ⟩

/-- A thread that is served alone computes what it computes alone. -/
theorem Pool.run_alone (rng : (t : ι) → Rng (N t) (D t) K G) (m : Nat)
    (P : Pool ι N D A K G) (t : ι) (a : A t)
    (h : (P.run rng (List.replicate m t)).prog t = .done a) :
    (P.prog t).run (rng t) P.gen = ((P.run rng (List.replicate m t)).gen, a) := by
  induction m generalizing P with
  | zero =>
    have h : P.prog t = .done a := h
    rw [h]
    rfl
  | succ m ih =>
    have := ih (P.step rng t) h
    rw [Pool.step_self] at this
    rw [← Prog.run_next]
    exact this

/-- A thread that is served often enough finishes. -/
theorem Pool.finishes (rng : (t : ι) → Rng (N t) (D t) K G) (σ : Nat → ι) (t : ι)
    (hσ : ∀ m, ∃ k, m ≤ k ∧ σ k = t) (P : Pool ι N D A K G) :
    ∃ m a, (P.run rng ((List.range m).map σ)).prog t = .done a := by
  have hsucc : ∀ m, P.run rng ((List.range (m + 1)).map σ) =
      (P.run rng ((List.range m).map σ)).step rng (σ m) := by
    intro m
    unfold Pool.run
    rw [List.range_succ, List.map_append, List.foldl_append]
    rfl
  have key : ∀ (p : Prog (N t) (D t) K (A t)) m, (P.run rng ((List.range m).map σ)).prog t = p →
      ∃ m a, (P.run rng ((List.range m).map σ)).prog t = .done a := by
    have wait : ∀ (p : Prog (N t) (D t) K (A t)),
        (∀ m, (P.run rng ((List.range m).map σ)).prog t = p → σ m = t →
          ∃ m a, (P.run rng ((List.range m).map σ)).prog t = .done a) →
        ∀ m, (P.run rng ((List.range m).map σ)).prog t = p →
          ∃ m a, (P.run rng ((List.range m).map σ)).prog t = .done a := by
      intro p hp m hm
      obtain ⟨k, hk, hkt⟩ := hσ m
      obtain ⟨j, rfl⟩ := Nat.exists_eq_add_of_le hk
      induction j generalizing m with
      | zero => exact hp m hm hkt
      | succ j ih =>
        by_cases h : σ m = t
        · exact hp m hm h
        · refine ih (m + 1) ?_ (by omega) (by rw [← hkt]; congr 1; omega)
          rw [hsucc, Pool.step_other _ _ (Ne.symm h), hm]
    have served : ∀ m, σ m = t → (P.run rng ((List.range (m + 1)).map σ)).prog t =
        (((P.run rng ((List.range m).map σ)).prog t).next (rng t)
          (P.run rng ((List.range m).map σ)).gen).2 := by
      intro m hm
      rw [hsucc, hm, Pool.step_self]
    intro p
    induction p with
    | done a => intro m hm; exact ⟨m, a, hm⟩
    | real f ih =>
      refine wait (.real f) fun m hm ht =>
        ih ((rng t).real (P.run rng ((List.range m).map σ)).gen).1 (m + 1) ?_
      rw [served m ht, hm]; rfl
    | bits f ih =>
      refine wait (.bits f) fun m hm ht =>
        ih ((rng t).bits (P.run rng ((List.range m).map σ)).gen).1 (m + 1) ?_
      rw [served m ht, hm]; rfl
    | choice k i f ih =>
      refine wait (.choice k i f) fun m hm ht =>
        ih ((rng t).choice k i (P.run rng ((List.range m).map σ)).gen).1 (m + 1) ?_
      rw [served m ht, hm]; rfl
  exact key _ 0 rfl

end PySwarms
