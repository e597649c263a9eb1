import Verif.Lemmas.Reach
import Verif.Lemmas.Handlers

/-! Lifting lemmas with loop-internal invariants, and facts about one position or velocity update. -/

set_option linter.unusedSectionVars false

namespace PySwarms

variable {n d : Nat} {K : Type} [Field K] [LinearOrder K] [Transc K] [FloorRing K]

/-- Like `loop_inv` with an invariant for the particular draws of this call. -/
theorem optimize_inv2 (cfg : Config n d K) (ev : Nat → Mat n d K → Except Err (Costs n K))
    (iters : Nat) (nproc : Option Nat) (env : Nat → Draw n d K) (I J : Opt n d K → Prop)
    (hstart : ∀ s, I s → J (startState cfg nproc s))
    (hiter : ∀ i q s, J s → J (iterate cfg (ev i) (env i) iters i q s).1)
    (hend : ∀ s c, J s → I { s with openPools := c })
    (hbad : ∀ s a b, I s → I { s with bhMem := a, vhMem := b })
    (s : Opt n d K) (hs : I s) : I (optimize cfg ev iters nproc env s).1 := by
  have hc := optimize_cases cfg ev iters nproc env s
  have hl := loop_inv cfg ev env iters J hiter iters 0 [] _ (hstart s hs)
  generalize (optimize cfg ev iters nproc env s).1 = s' at hc ⊢
  generalize (optimize cfg ev iters nproc env s).2 = o at hc
  cases hc with
  | badPool h => exact hbad s _ _ hs
  | loopError s1 e hp h => rw [h] at hl; exact hend _ s'.openPools hl
  | finishError s1 e hp h hf => rw [h] at hl; exact hend _ s'.openPools hl
  | done r hp s1 h hf => rw [h] at hl; exact hend _ _ hl

/-- Invariants of a list of API calls. -/
theorem runOps_inv (cfg : Config n d K) (I : Opt n d K → Prop) (P : Op n d K → Prop)
    (h : ∀ s op, P op → I s → I (stepOp cfg s op)) (ops : List (Op n d K)) (hops : ∀ op ∈ ops, P op)
    (s : Opt n d K) (hs : I s) : I (runOps cfg s ops) := by
  induction ops generalizing s with
  | nil => exact hs
  | cons op ops ih =>
    exact ih (fun o ho => hops o (List.mem_cons_of_mem _ ho)) _
      (h s op (hops op (List.mem_cons_self)) hs)

/-- Two configurations whose iterations agree on an invariant have the same loops. -/
theorem loop_congr (cfg cfg' : Config n d K) (ev : Nat → Mat n d K → Except Err (Costs n K))
    (env : Nat → Draw n d K) (iters : Nat) (J : Opt n d K → Prop)
    (hiter : ∀ i q s, J s → J (iterate cfg (ev i) (env i) iters i q s).1)
    (heq : ∀ i q s, J s → iterate cfg (ev i) (env i) iters i q s =
      iterate cfg' (ev i) (env i) iters i q s)
    (m i : Nat) (q : List Bool) (s : Opt n d K) (hs : J s) :
    loop cfg ev env iters m i q s = loop cfg' ev env iters m i q s := by
  induction m generalizing i q s with
  | zero => rfl
  | succ m ih =>
    have h1 := hiter i q s hs
    rw [loop, loop, ← heq i q s hs]
    generalize iterate cfg (ev i) (env i) iters i q s = o at h1 ⊢
    obtain ⟨s', e | f⟩ := o
    · rfl
    · cases f with
      | stop => rfl
      | «continue» q' => exact ih _ _ _ h1

theorem recordEval_position (c : Costs n K) (s : Opt n d K) :
    (recordEval c s).swarm.position = s.swarm.position := rfl

theorem recordEval_velocity (c : Costs n K) (s : Opt n d K) :
    (recordEval c s).swarm.velocity = s.swarm.velocity := rfl

/-- The new personal best position of a particle is the old one or the evaluated position. -/
theorem recordEval_pbestPos_or (c : Costs n K) (s : Opt n d K) (i : Fin n) :
    (recordEval c s).swarm.pbestPos i = s.swarm.pbestPos i ∨
      (recordEval c s).swarm.pbestPos i = s.swarm.position i := by
  by_cases h : XR.lt (c i) (s.swarm.pbestCost i) = true
  · right; funext j; simp [recordEval, computePbest, h]
  · left; funext j; simp [recordEval, computePbest, h]

/-- All the ways the second half of an iteration can end. -/
inductive MoveCase (cfg : Config n d K) (r : Draw n d K) (iters i : Nat) (s : Opt n d K) :
    Opt n d K → Except Err Unit → Prop
  | optError (e : Err) (h : callOptions cfg iters i r s.swarm = .error e) :
      MoveCase cfg r iters i s s (.error e)
  | velError (o : Opts K) (vm : Option (Mat n d K)) (e : Err)
      (h : callOptions cfg iters i r s.swarm = .ok o)
      (hv : computeVelocity { s.swarm with options := o } cfg.clamp cfg.vhStrategy s.vhMem
        (velBounds cfg) r.r1 r.r2 = (vm, .error e)) :
      MoveCase cfg r iters i s
        { s with vhMem := vm, swarm := { s.swarm with options := o } } (.error e)
  | posError (o : Opts K) (vm : Option (Mat n d K)) (v : Mat n d K) (bm : Option (Mat n d K))
      (e : Err) (h : callOptions cfg iters i r s.swarm = .ok o)
      (hv : computeVelocity { s.swarm with options := o } cfg.clamp cfg.vhStrategy s.vhMem
        (velBounds cfg) r.r1 r.r2 = (vm, .ok v))
      (hp : callPosition cfg r s.bhMem { s.swarm with options := o, velocity := v } =
        (bm, .error e)) :
      MoveCase cfg r iters i s
        { s with vhMem := vm, bhMem := bm, swarm := { s.swarm with options := o, velocity := v } }
        (.error e)
  | ok (o : Opts K) (vm : Option (Mat n d K)) (v : Mat n d K) (bm : Option (Mat n d K))
      (p : Mat n d K) (h : callOptions cfg iters i r s.swarm = .ok o)
      (hv : computeVelocity { s.swarm with options := o } cfg.clamp cfg.vhStrategy s.vhMem
        (velBounds cfg) r.r1 r.r2 = (vm, .ok v))
      (hp : callPosition cfg r s.bhMem { s.swarm with options := o, velocity := v } =
        (bm, .ok p)) :
      MoveCase cfg r iters i s
        { s with vhMem := vm, bhMem := bm,
                 swarm := { s.swarm with options := o, velocity := v, position := p } } (.ok ())

theorem moveSwarm_cases (cfg : Config n d K) (r : Draw n d K) (iters i : Nat) (s : Opt n d K) :
    MoveCase cfg r iters i s (moveSwarm cfg r iters i s).1 (moveSwarm cfg r iters i s).2 := by
  unfold moveSwarm
  split
  · next e he => exact .optError e he
  · next o ho =>
    dsimp only
    split
    · next vm e hv => exact .velError o vm e ho hv
    · next vm v hv =>
      split
      · next bm e hp => exact .posError o vm v bm e ho hv hp
      · next bm p hp => exact .ok o vm v bm p ho hv hp

/-- An invariant is preserved by an iteration if it is preserved by its three parts. -/
theorem iterate_inv (cfg : Config n d K) (ev : Mat n d K → Except Err (Costs n K)) (r : Draw n d K)
    (iters i : Nat) (q : List Bool) (J : Opt n d K → Prop)
    (heval : ∀ s c, J s → ev s.swarm.position = .ok c → J (recordEval c s))
    (htop : ∀ s t, J s → J { s with top := t })
    (hbest : ∀ s t g, J s → J (recordBest t g s))
    (hmove : ∀ s, J s → J (moveSwarm cfg r iters i s).1)
    (s : Opt n d K) (hs : J s) : J (iterate cfg ev r iters i q s).1 := by
  have hc := iterate_cases cfg ev r iters i q s
  generalize (iterate cfg ev r iters i q s).1 = s' at hc ⊢
  generalize (iterate cfg ev r iters i q s).2 = o at hc
  cases hc with
  | evalError e h => exact hs
  | gbestError c t e h hg => exact htop _ _ (heval _ _ hs h)
  | stop c t g h hg hi hq => exact hbest _ _ _ (heval _ _ hs h)
  | moveError c t g _ e h hg hns hm =>
    have := hmove _ (hbest _ t g (heval _ _ hs h)); rw [hm] at this; exact this
  | moved c t g _ h hg hns hm =>
    have := hmove _ (hbest _ t g (heval _ _ hs h)); rw [hm] at this; exact this

/-- What `computeVelocity` can return: always the result of a handler call, or an error with the
memory as the handler (or nobody) left it. -/
theorem computeVelocity_ok {s : Swarm n d K} {clamp : Option (Clamp d K)} {strategy : String}
    {mem mem' : Option (Mat n d K)} {bounds : Option (Bounds d K)} {r1 r2 v : Mat n d K}
    (h : computeVelocity s clamp strategy mem bounds r1 r2 = (mem', .ok v)) :
    ∃ c1 c2 w, s.options.lookup "c1" = some c1 ∧ s.options.lookup "c2" = some c2 ∧
      s.options.lookup "w" = some w ∧
      vhCall strategy mem clamp { position := some s.position, bounds := some bounds }
        (tempVelocity c1 c2 w r1 r2 s) = (mem', .ok v) := by
  unfold computeVelocity at h
  split at h
  · next c1 c2 w h1 h2 h3 =>
    refine ⟨c1, c2, w, h1, h2, h3, ?_⟩
    dsimp only at h
    split at h
    · split at h
      · exact h
      · split at h
        · split at h
          · exact h
          · split at h <;> cases h
        · cases h
    · exact h
  · cases h

theorem computeVelocity_mem (s : Swarm n d K) (clamp : Option (Clamp d K)) (strategy : String)
    (mem : Option (Mat n d K)) (bounds : Option (Bounds d K)) (r1 r2 : Mat n d K) :
    (computeVelocity s clamp strategy mem bounds r1 r2).1 = mem ∨
      (computeVelocity s clamp strategy mem bounds r1 r2).1 = some s.position := by
  have key : ∀ v, (vhCall strategy mem clamp
      { position := some s.position, bounds := some bounds } v).1 = mem ∨
      (vhCall strategy mem clamp
      { position := some s.position, bounds := some bounds } v).1 = some s.position := by
    intro v
    unfold vhCall
    split
    · left; rfl
    · split
      · right; unfold vhAdjust; dsimp only; cases mem <;> rfl
      · split
        · left; rfl
        · split <;> (left; rfl)
  unfold computeVelocity
  split
  · next c1 c2 w h1 h2 h3 =>
    dsimp only
    split
    · split
      · exact key _
      · split
        · split
          · exact key _
          · have := key (tempVelocity c1 c2 w r1 r2 s)
            split
            · next he => rw [he] at this; exact this
            · next he => rw [he] at this; exact this
        · left; rfl
    · exact key _
  · left; rfl

/-- The memory a boundary handler call leaves behind is the old one or the result. -/
theorem bhCall_mem (strategy : String) (mem : Option (Mat n d K)) (b : Bounds d K)
    (r : BHDraw d K) (x : Mat n d K) :
    (bhCall strategy mem b r x).1 = mem ∨
      ∃ y, bhCall strategy mem b r x = (some y, .ok y) := by
  unfold bhCall
  split
  · left; rfl
  · split
    · left; rfl
    · split
      · unfold bhShrink
        cases mem with
        | none => right; exact ⟨x, rfl⟩
        | some m =>
          dsimp only
          split
          · left; rfl
          · split
            · left; rfl
            · right; exact ⟨_, rfl⟩
      · split
        · left; rfl
        · split
          · unfold bhIntermediate
            cases mem with
            | none => right; exact ⟨x, rfl⟩
            | some m => right; exact ⟨_, rfl⟩
          · split <;> (left; rfl)

end PySwarms
