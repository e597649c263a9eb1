import Verif.Props.Particles

/-!
# The Von Neumann topology is a static ring (C70)
-/

set_option linter.unusedSectionVars false

namespace PySwarms

variable {n d : Nat} {K : Type} [Field K] [LinearOrder K] [Transc K] [FloorRing K]

/-- The options `k`, `p` and `r` are read by the topology only. -/
theorem args_same (cfg : Config n d K) (a : TopArgs)
    (hg : ∀ (o : Oracle n d K) (t : TopState n) (s : Swarm n d K),
      callGbest cfg o t s = callGbest { cfg with args := a } o t s) :
    (∀ ev iters nproc env s, optimize cfg ev iters nproc env s =
      optimize { cfg with args := a } ev iters nproc env s) ∧
    ∀ s ops, runOps cfg s ops = runOps { cfg with args := a } s ops := by
  have hm : ∀ (r : Draw n d K) iters i s, moveSwarm cfg r iters i s =
      moveSwarm { cfg with args := a } r iters i s := by
    intro r iters i s
    rfl
  have hit : ∀ (ev : Mat n d K → Except Err (Costs n K)) (r : Draw n d K) iters i q s,
      iterate cfg ev r iters i q s = iterate { cfg with args := a } ev r iters i q s := by
    intro ev r iters i q s
    unfold iterate
    simp only [hg, hm]
    rfl
  have hl : ∀ ev env iters m i q s, loop cfg ev env iters m i q s =
      loop { cfg with args := a } ev env iters m i q s := by
    intro ev env iters m
    induction m with
    | zero => intros; rfl
    | succ m ih =>
      intro i q s
      unfold loop
      rw [hit]
      simp only [ih]
  have hp : ∀ s, prepare cfg s = prepare { cfg with args := a } s := fun _ => rfl
  have ho : ∀ ev iters nproc env s, optimize cfg ev iters nproc env s =
      optimize { cfg with args := a } ev iters nproc env s := by
    intro ev iters nproc env s
    unfold optimize
    simp only [hl, hp]
  refine ⟨ho, fun s ops => ?_⟩
  unfold runOps
  congr 1
  funext s op
  cases op with
  | optimize ev iters nproc env => exact congrArg Prod.fst (ho _ _ _ _ _)
  | reset r => rfl

/-- **C70.**  `GeneralOptimizerPSO(topology=VonNeumann())` with the options `p` and `r` is
`LocalBestPSO(static=True)` with the options `p` and `k`, where `k` is the Delannoy number of the
dimensions and `r` (C13: the number of cells within `r` steps on a grid): the constructor has the same
outcome, every sequence of calls leaves the same state, and every call has the same outcome, exceptions
included.  In particular the neighbourhoods are the nearest particles, as in a ring; no grid is laid
out. -/
theorem C70_vonNeumann (cfg : Config n d K) (p r : Nat) (a : TopArgs) (hp : a.p = some p)
    (hr : a.r = some r) (b : TopArgs) (hbp : b.p = some p) (hbk : b.k = some (delannoy d r)) :
    (∀ r1 r2, construct { cfg with kind := .general .vonNeumann, args := a } r1 r2 =
      construct { cfg with kind := .localBest true, args := b } r1 r2) ∧
    (∀ s ops, runOps { cfg with kind := .general .vonNeumann, args := a } s ops =
      runOps { cfg with kind := .localBest true, args := b } s ops) ∧
    ∀ ev iters nproc env s,
      optimize { cfg with kind := .general .vonNeumann, args := a } ev iters nproc env s =
        optimize { cfg with kind := .localBest true, args := b } ev iters nproc env s := by
  obtain ⟨ak, ap, ar⟩ := a
  obtain ⟨bk, bp, br⟩ := b
  dsimp only at hp hr hbp hbk
  subst hp hr hbp hbk
  have h2 := kind_same
    { cfg with kind := .general .vonNeumann, args := ⟨some (delannoy d r), some p, some r⟩ }
    { cfg with kind := .localBest true, args := ⟨some (delannoy d r), some p, some r⟩ }
    (fun _ _ _ => rfl) (by simp) (by simp) rfl
  have h3 := args_same
    { cfg with kind := .localBest true, args := ⟨some (delannoy d r), some p, some r⟩ }
    ⟨some (delannoy d r), some p, br⟩ (fun _ _ _ => rfl)
  have h0 := args_same { cfg with kind := .general .vonNeumann, args := ⟨ak, some p, some r⟩ }
    ⟨some (delannoy d r), some p, some r⟩ (fun _ _ _ => rfl)
  refine ⟨fun r1 r2 => ?_, fun s ops => ?_, fun ev iters nproc env s => ?_⟩
  · unfold construct resetSwarm Config.isBinary
    rfl
  · exact (h0.2 s ops).trans ((h2.2.2 s ops).trans (h3.2 s ops))
  · exact (h0.1 _ _ _ _ _).trans ((h2.1 _ _ _ _ _).trans (h3.1 _ _ _ _ _))

/-- Three particles in one dimension with range 1: a static ring of all three. -/
example (r1 r2 : InitDraw 3 1 ℚ) :
    delannoy 1 1 = 3 ∧
    construct { Ex.gcfg 3 1 with kind := .general .vonNeumann, args := ⟨none, some 2, some 1⟩ }
        r1 r2 =
      construct { Ex.gcfg 3 1 with kind := .localBest true, args := ⟨some 3, some 2, none⟩ }
        r1 r2 :=
  ⟨by decide +kernel, (C70_vonNeumann (Ex.gcfg 3 1) 2 1 ⟨none, some 2, some 1⟩ rfl rfl
    ⟨some 3, some 2, none⟩ rfl (by decide +kernel)).1 r1 r2⟩

end PySwarms
