import Verif.Props.Seed

/-!
# Seeded histories are histories of the model with free random numbers (C85)
-/

set_option linter.unusedSectionVars false

namespace PySwarms

variable {n d : Nat} {K G : Type} [Field K] [LinearOrder K] [Transc K] [FloorRing K]

/-! ### Specification -/

/-- The generator after the positions of a swarm have been created: nothing is drawn if `init_pos` is
given; BinaryPSO draws a matrix of bits, the others `n d` doubles. -/
def Rng.afterPositions (rng : Rng n d K G) (cfg : Config n d K) (g : G) : G :=
  match cfg.initPos with
  | some _ => g
  | none => if cfg.isBinary then (rng.bits g).2 else rng.skip (n * d) g

/-- The numbers `r` are those read from the generator `g` by the creation of a swarm: the bits or the
doubles of the positions (not read if `init_pos` is given), then the doubles of the velocities, row
by row. -/
def ReadBy (cfg : Config n d K) (rng : Rng n d K G) (g : G) (r : InitDraw n d K) : Prop :=
  (cfg.initPos = none → cfg.isBinary = true → r.bits = (rng.bits g).1) ∧
  (cfg.initPos = none → cfg.isBinary = false →
    ∀ i j, r.pos i j = (rng.real (rng.skip (i * d + j) g)).1) ∧
  ∀ i j, r.vel i j = (rng.real (rng.skip (i * d + j) (rng.afterPositions cfg g))).1

/-- The calls `o` (with free numbers) and `og` (numbers from the generator) are the same: the
objective of `o` answers evaluation `t` as that of `og` does when the generator is `γ t`. -/
def SameOp : OpG n d K G → Op n d K → Prop
  | .optimize ev _ iters nproc, .optimize f iters' nproc' _ =>
    iters = iters' ∧ nproc = nproc' ∧ ∃ γ : Nat → G, f = fun t x => (ev t x (γ t)).2
  | .reset, .reset _ => True
  | _, _ => False

/-! ### Creation of swarms -/

/-- The numbers read by the creation of a swarm. -/
def initBatch (cfg : Config n d K) (rng : Rng n d K G) (g : G) : InitDraw n d K :=
  ⟨(sampleMat rng g).1, (rng.bits g).1, fun _ j => j,
    (sampleMat rng (rng.afterPositions cfg g)).1⟩

theorem initBatch_read (cfg : Config n d K) (rng : Rng n d K G) (g : G) :
    ReadBy cfg rng g (initBatch cfg rng g) :=
  ⟨fun _ _ => rfl, fun _ _ i j => sampleMat_get rng g i j, fun i j => sampleMat_get rng _ i j⟩

theorem initBatch_legal (cfg : Config n d K) (rng : Rng n d K G) (hr : rng.Legal) (g : G) :
    (initBatch cfg rng g).Legal := by
  have hm : ∀ g i j, Unit01 ((sampleMat rng g).1 i j) :=
    fun g i j => by rw [sampleMat_get]; exact hr _
  exact ⟨fun i j => hm _ i j, fun i j => hm _ i j⟩

theorem resetSwarmG_eq (cfg : Config n d K) (rng : Rng n d K G) (g : G) :
    (resetSwarmG cfg rng g).2 = resetSwarm cfg (initBatch cfg rng g) ∧
      (∀ sw, (resetSwarmG cfg rng g).2 = .ok sw →
        (resetSwarmG cfg rng g).1 = rng.skip (n * d) (rng.afterPositions cfg g)) ∧
      ∀ e, (resetSwarmG cfg rng g).2 = .error e → (resetSwarmG cfg rng g).1 = g := by
  unfold resetSwarmG resetSwarm createSwarm initBatch Rng.afterPositions
  cases hb : cfg.isBinary with
  | true =>
    simp only [if_true]
    cases hp : cfg.initPos with
    | none =>
      refine ⟨rfl, fun sw _ => sampleMat_skip _ _, fun e h => ?_⟩
      cases h
    | some q =>
      dsimp only
      have he : generateDiscreteSwarm true (some q) (rng.bits g).1 (fun _ j => j) =
          generateDiscreteSwarm true (some q) (fun _ _ => false) (fun _ j => j) := rfl
      rw [he]
      cases generateDiscreteSwarm true (some q) (fun _ _ => false) (fun _ j => j) with
      | error e => exact ⟨rfl, fun sw h => (by cases h), fun e h => rfl⟩
      | ok p => exact ⟨rfl, fun sw _ => sampleMat_skip _ _, fun e h => (by cases h)⟩
  | false =>
    simp only [Bool.false_eq_true, if_false]
    cases hp : cfg.initPos with
    | none =>
      dsimp only
      rw [sampleMat_skip]
      cases hg : generateSwarm cfg.bounds cfg.center none (sampleMat rng g).1 with
      | error e =>
        exfalso
        unfold generateSwarm at hg
        cases hbb : cfg.bounds <;> rw [hbb] at hg <;> cases hg
      | ok p => exact ⟨rfl, fun sw _ => sampleMat_skip _ _, fun e h => (by cases h)⟩
    | some q =>
      dsimp only
      have he : generateSwarm cfg.bounds cfg.center (some q) (sampleMat rng g).1 =
        generateSwarm cfg.bounds cfg.center (some q) (fun _ _ => 0) := by
        unfold generateSwarm
        cases cfg.bounds <;> rfl
      rw [he]
      cases generateSwarm cfg.bounds cfg.center (some q) (fun _ _ => 0) with
      | error e => exact ⟨rfl, fun sw h => (by cases h), fun e h => rfl⟩
      | ok p => exact ⟨rfl, fun sw _ => sampleMat_skip _ _, fun e h => (by cases h)⟩

/-- C85: `reset` is the reset of the model with the numbers that the generator delivers, for all
classes: first those of the positions, then those of the velocities.  A `reset` that raises has read
nothing. -/
theorem C85_reset (cfg : Config n d K) (rng : Rng n d K G) (g g' : G) (s s' : Opt n d K)
    (res : Except Err Unit) (h : resetG cfg rng g s = (g', s', res)) :
    (∃ r : InitDraw n d K, ReadBy cfg rng g r ∧ reset cfg r s = (s', res)) ∧
      (res = .ok () → g' = rng.skip (n * d) (rng.afterPositions cfg g)) ∧
      ∀ e, res = .error e → g' = g := by
  obtain ⟨h1, h2, h3⟩ := resetSwarmG_eq cfg rng g
  unfold resetG at h
  dsimp only at h
  have hr : reset cfg (initBatch cfg rng g) s = (s', res) ∧ (res = .ok () → g' =
      rng.skip (n * d) (rng.afterPositions cfg g)) ∧ ∀ e, res = .error e → g' = g := by
    unfold reset
    rw [← h1]
    generalize resetSwarmG cfg rng g = out at h h2 h3
    obtain ⟨g1, e | sw⟩ := out
    · cases h
      exact ⟨rfl, fun h => (by cases h), fun e' he => (by cases he; exact h3 e rfl)⟩
    · cases h
      exact ⟨rfl, fun _ => h2 sw rfl, fun e' he => (by cases he)⟩
  exact ⟨⟨_, initBatch_read cfg rng g, hr.1⟩, hr.2⟩

/-- C85: a constructor that succeeds, of any class, has created two swarms from consecutive numbers
of the generator, and the optimizer starts from the second one. -/
theorem C85_construct_any (cfg : Config n d K) (rng : Rng n d K G) (g g' : G) (s : Opt n d K)
    (h : constructG cfg rng g = (g', .ok s)) :
    let mid := rng.skip (n * d) (rng.afterPositions cfg g)
    g' = rng.skip (n * d) (rng.afterPositions cfg mid) ∧
      ∃ r1 r2 : InitDraw n d K, ReadBy cfg rng g r1 ∧ ReadBy cfg rng mid r2 ∧
        (rng.Legal → r1.Legal ∧ r2.Legal) ∧ construct cfg r1 r2 = .ok s := by
  dsimp only
  unfold constructG at h
  split at h
  · cases h
  · next hkp =>
    split at h
    · cases h
    · next hft =>
      split at h
      · cases h
      · next g1 sw1 h1 =>
        split at h
        · cases h
        · next g2 sw2 h2 =>
          cases h
          obtain ⟨a1, a2, _⟩ := resetSwarmG_eq cfg rng g
          rw [h1] at a1 a2
          have hg1 : g1 = _ := a2 sw1 rfl
          subst hg1
          obtain ⟨b1, b2, _⟩ := resetSwarmG_eq cfg rng
            (rng.skip (n * d) (rng.afterPositions cfg g))
          rw [h2] at b1 b2
          refine ⟨b2 sw2 rfl, initBatch cfg rng g, initBatch cfg rng _, initBatch_read cfg rng g,
            initBatch_read cfg rng _, fun hr => ⟨initBatch_legal cfg rng hr _,
              initBatch_legal cfg rng hr _⟩, ?_⟩
          unfold construct
          rw [if_neg hkp, hft]
          dsimp only at a1 b1 ⊢
          rw [← a1]
          dsimp only
          rw [← b1]

/-! ### Objectives that use the generator -/

theorem iterateG_free (cfg : Config n d K) (ev : ObjG n d K G) (rng : Rng n d K G)
    (ext : Libs n d K) (iters i : Nat) (q : List Bool) (g : G) (s : Opt n d K) :
    ∃ r : Draw n d K, (iterateG cfg ev rng ext iters i q g s).2 =
        iterate cfg (fun x => (ev x g).2) r iters i q s ∧
      ∃ b g', r = (batch cfg rng ext b g').draw := by
  have h : iterateG cfg ev rng ext iters i q g s =
      iterateG cfg (fun x g' => (g', (ev x g).2)) rng ext iters i q (ev s.swarm.position g).1 s := by
    unfold iterateG
    have he : (fun x g' => (g', (ev x g).2) : ObjG n d K G) s.swarm.position
        (ev s.swarm.position g).1 = ev s.swarm.position g := rfl
    rw [he]
  rw [h]
  exact ⟨_, (iterateG_eq cfg (fun x g' => (g', (ev x g).2)) (fun x => (ev x g).2)
    (fun _ _ => rfl) rng ext s.top.neighbor.isNone iters i q _ s rfl).1, _, _, rfl⟩

theorem loop_tail (cfg : Config n d K) (f f' : Nat → Mat n d K → Except Err (Costs n K))
    (env env' : Nat → Draw n d K) (iters m i : Nat) (q : List Bool) (s : Opt n d K)
    (h : ∀ t, i ≤ t → f t = f' t ∧ env t = env' t) :
    loop cfg f env iters m i q s = loop cfg f' env' iters m i q s := by
  induction m generalizing i q s with
  | zero => rfl
  | succ m ih =>
    unfold loop
    rw [(h i le_rfl).1, (h i le_rfl).2]
    generalize iterate cfg (f' i) (env' i) iters i q s = out
    obtain ⟨s', e | fl⟩ := out
    · rfl
    · cases fl with
      | stop => rfl
      | «continue» q' => exact ih (i + 1) q' s' fun t ht => h t (by omega)

theorem loopG_free (cfg : Config n d K) (ev : Nat → ObjG n d K G) (rng : Rng n d K G)
    (ext : Libs n d K) (iters m i : Nat) (q : List Bool) (g : G) (s : Opt n d K) :
    ∃ (γ : Nat → G) (env : Nat → Draw n d K),
      (loopG cfg ev rng ext iters m i q g s).2 =
        loop cfg (fun t x => (ev t x (γ t)).2) env iters m i q s ∧
      ∀ t, ∃ b g', env t = (batch cfg rng ext b g').draw := by
  induction m generalizing i q g s with
  | zero => exact ⟨fun _ => g, fun _ => (batch cfg rng ext true g).draw, rfl, fun _ => ⟨_, _, rfl⟩⟩
  | succ m ih =>
    obtain ⟨r, hr, hb⟩ := iterateG_free cfg (ev i) rng ext iters i q g s
    unfold loopG loop
    generalize iterateG cfg (ev i) rng ext iters i q g s = out at hr
    obtain ⟨g', s', e | fl⟩ := out
    · refine ⟨fun _ => g, fun _ => r, ?_, fun _ => hb⟩
      dsimp only at hr ⊢
      rw [← hr]
    · cases fl with
      | stop =>
        refine ⟨fun _ => g, fun _ => r, ?_, fun _ => hb⟩
        dsimp only at hr ⊢
        rw [← hr]
      | «continue» q' =>
        obtain ⟨γ, env, h1, h2⟩ := ih (i + 1) q' g' s'
        refine ⟨fun t => if t = i then g else γ t, fun t => if t = i then r else env t, ?_, ?_⟩
        · dsimp only at hr ⊢
          rw [if_pos rfl, if_pos rfl, ← hr]
          dsimp only
          rw [h1]
          apply loop_tail
          intro t ht
          have hne : t ≠ i := by omega
          simp only [if_neg hne, and_self]
        · intro t
          dsimp only
          split
          · exact hb
          · exact h2 t

/-- C85: also with an objective that uses the generator itself, a seeded call is a call of the model
with free numbers: some numbers in `[0, 1)`, and the objective that answers evaluation `t` as the
given one does with the generator at that time. -/
theorem C85_any_objective [IsStrictOrderedRing K] (cfg : Config n d K) (ev : Nat → ObjG n d K G)
    (rng : Rng n d K G) (ext : Libs n d K) (iters : Nat) (nproc : Option Nat) (g : G)
    (s : Opt n d K) :
    ∃ (γ : Nat → G) (env : Nat → Draw n d K),
      (optimizeG cfg ev rng ext iters nproc g s).2 =
        optimize cfg (fun t x => (ev t x (γ t)).2) iters nproc env s ∧
      (rng.Legal → ∀ t, (env t).Legal) := by
  obtain ⟨γ, env, h1, h2⟩ := loopG_free cfg ev rng ext iters iters 0 [] g
    { prepare cfg s with openPools := s.openPools + (if nproc.isSome then 1 else 0) }
  refine ⟨γ, env, ?_, ?_⟩
  · unfold optimizeG optimize
    by_cases hp : nproc = some 0
    · rw [if_pos hp, if_pos hp]
    · rw [if_neg hp, if_neg hp]
      dsimp only at h1 ⊢
      rw [← h1]
      generalize loopG cfg ev rng ext iters iters 0 [] g _ = L
      obtain ⟨g1, s1, e | ⟨⟩⟩ := L
      · rfl
      · dsimp only
        cases finish s1 <;> rfl
  · intro hr t
    obtain ⟨b, g', hb⟩ := h2 t
    rw [hb]
    exact batch_legal cfg rng hr ext b g'

/-- C85: whatever is done after `np.random.seed(…)` – a construction and any calls with any
objectives – is a history of the model with free numbers in `[0, 1)`: every theorem about all
histories of that model holds of the seeded program. -/
theorem C85_history [IsStrictOrderedRing K] (cfg : Config n d K) (rng : Rng n d K G) (g g' : G)
    (s : Opt n d K) (hs : constructG cfg rng g = (g', .ok s)) (gops : List (OpG n d K G)) :
    Reachable cfg (runG cfg rng (g', s) gops).2 ∧
      ∃ (r1 r2 : InitDraw n d K) (ops : List (Op n d K)),
        construct cfg r1 r2 = .ok s ∧ List.Forall₂ SameOp gops ops ∧
        (runG cfg rng (g', s) gops).2 = runOps cfg s ops ∧
        (rng.Legal → r1.Legal ∧ r2.Legal ∧ ∀ o ∈ ops, o.Legal) := by
  obtain ⟨_, r1, r2, _, _, hl, hc⟩ := C85_construct_any cfg rng g g' s hs
  have key : ∀ (gops : List (OpG n d K G)) (gs : G × Opt n d K), ∃ ops : List (Op n d K),
      List.Forall₂ SameOp gops ops ∧ (runG cfg rng gs gops).2 = runOps cfg gs.2 ops ∧
      (rng.Legal → ∀ o ∈ ops, o.Legal) := by
    intro gops
    induction gops with
    | nil => intro gs; exact ⟨[], .nil, rfl, fun _ o ho => (by cases ho)⟩
    | cons c cs ih =>
      intro gs
      obtain ⟨ops, h1, h2, h3⟩ := ih (stepG cfg rng gs c)
      cases c with
      | optimize ev ext iters nproc =>
        obtain ⟨γ, env, ho, hlo⟩ := C85_any_objective cfg ev rng ext iters nproc gs.1 gs.2
        refine ⟨.optimize (fun t x => (ev t x (γ t)).2) iters nproc env :: ops,
          .cons ⟨rfl, rfl, γ, rfl⟩ h1, ?_, ?_⟩
        · have hst : (stepG cfg rng gs (.optimize ev ext iters nproc)).2 =
              stepOp cfg gs.2 (.optimize (fun t x => (ev t x (γ t)).2) iters nproc env) := by
            show (optimizeG cfg ev rng ext iters nproc gs.1 gs.2).2.1 = _
            rw [ho]
            rfl
          show (runG cfg rng (stepG cfg rng gs (.optimize ev ext iters nproc)) cs).2 =
            runOps cfg (stepOp cfg gs.2 _) ops
          rw [h2, hst]
        · intro hr o ho'
          rcases List.mem_cons.1 ho' with rfl | ho'
          · exact hlo hr
          · exact h3 hr o ho'
      | reset =>
        obtain ⟨h4, _⟩ := resetSwarmG_eq cfg rng gs.1
        refine ⟨.reset (initBatch cfg rng gs.1) :: ops, .cons trivial h1, ?_, ?_⟩
        · have hst : (stepG cfg rng gs .reset).2 =
              stepOp cfg gs.2 (.reset (initBatch cfg rng gs.1)) := by
            show (resetG cfg rng gs.1 gs.2).2.1 = (reset cfg (initBatch cfg rng gs.1) gs.2).1
            unfold resetG reset
            rw [← h4]
            generalize resetSwarmG cfg rng gs.1 = out
            obtain ⟨g1, e | sw⟩ := out <;> rfl
          show (runG cfg rng (stepG cfg rng gs .reset) cs).2 = runOps cfg (stepOp cfg gs.2 _) ops
          rw [h2, hst]
        · intro hr o ho'
          rcases List.mem_cons.1 ho' with rfl | ho'
          · exact initBatch_legal cfg rng hr _
          · exact h3 hr o ho'
  obtain ⟨ops, h1, h2, h3⟩ := key gops (g', s)
  exact ⟨⟨r1, r2, s, ops, hc, h2⟩, r1, r2, ops, hc, h1, h2,
    fun hr => ⟨(hl hr).1, (hl hr).2, h3 hr⟩⟩

/-! ### Examples -/

/-- A seeded history: construct, optimize, reset, optimize; the second swarm comes from the numbers
that follow those of the first call. -/
example : (match constructG (Ex.gcfg 2 1) (Ex.counter 2 1) 0 with
    | (g, .ok s) =>
      let o := runG (Ex.gcfg 2 1) (Ex.counter 2 1) (g, s)
        [.optimize (Ex.loudSphere 2 1) (Ex.libs 2 1) 2 none, .reset,
         .optimize (Ex.quietSphere 2 1) (Ex.libs 2 1) 2 none]
      decide (o.1 = 8 + 10 + 4 + 8) && decide (o.2.costHistory.length = 2)
    | _ => false) = true := by decide +kernel

end PySwarms
