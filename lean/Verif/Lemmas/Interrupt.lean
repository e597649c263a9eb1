import Verif.Model.Interrupt
import Verif.Lemmas.Runs
import Verif.Lemmas.Gbest
import Verif.Lemmas.Star

/-! Lemmas about interrupted calls. -/

set_option linter.unusedSectionVars false

namespace PySwarms

variable {n d : Nat} {K : Type} [Field K] [LinearOrder K]

/-- Exactly one attribute of the object (or of its swarm, topology or handlers) has been assigned.
The ghost log belongs to `current_cost` and, when `reset` replaces the whole swarm, to the swarm. -/
inductive Store : Opt n d K → Opt n d K → Prop
  | bhMem (s) (x) : Store s { s with bhMem := x }
  | vhMem (s) (x) : Store s { s with vhMem := x }
  | openPools (s) (x) : Store s { s with openPools := x }
  | top (s) (x) : Store s { s with top := x }
  | costHistory (s) (x) : Store s { s with costHistory := x }
  | meanPbestHistory (s) (x) : Store s { s with meanPbestHistory := x }
  | meanNeighborHistory (s) (x) : Store s { s with meanNeighborHistory := x }
  | posHistory (s) (x) : Store s { s with posHistory := x }
  | velocityHistory (s) (x) : Store s { s with velocityHistory := x }
  | position (s) (x) : Store s { s with swarm := { s.swarm with position := x } }
  | velocity (s) (x) : Store s { s with swarm := { s.swarm with velocity := x } }
  | options (s) (x) : Store s { s with swarm := { s.swarm with options := x } }
  | pbestPos (s) (x) : Store s { s with swarm := { s.swarm with pbestPos := x } }
  | pbestCost (s) (x) : Store s { s with swarm := { s.swarm with pbestCost := x } }
  | bestPos (s) (x) : Store s { s with swarm := { s.swarm with bestPos := x } }
  | bestCost (s) (x) : Store s { s with swarm := { s.swarm with bestCost := x } }
  | currentCost (s) (x) : Store s { s with
      swarm := { s.swarm with currentCost := x }
      evals := s.evals ++ [(s.swarm.position, x)] }
  | newSwarm (s) (x) : Store s { s with swarm := x, evals := [] }

/-- `l` lists the states after `s`, one assignment apart, and ends in `s'`. -/
def Steps (s : Opt n d K) : List (Opt n d K) → Opt n d K → Prop
  | [], s' => s = s'
  | x :: l, s' => Store s x ∧ Steps x l s'

theorem Steps.append {s m s' : Opt n d K} {l l' : List (Opt n d K)} (h : Steps s l m)
    (h' : Steps m l' s') : Steps s (l ++ l') s' := by
  induction l generalizing s with
  | nil => cases h; exact h'
  | cons x l ih => exact ⟨h.1, ih h.2⟩

theorem Steps.isChain {s s' : Opt n d K} {l : List (Opt n d K)} (h : Steps s l s') :
    List.IsChain Store (s :: l) ∧ (s :: l).getLast? = some s' := by
  induction l generalizing s with
  | nil => cases h; simp
  | cons x l ih =>
    obtain ⟨h1, h2⟩ := ih h.2
    exact ⟨List.isChain_cons_cons.2 ⟨h.1, h1⟩, by rw [List.getLast?_cons_cons]; exact h2⟩

theorem evalStates_steps (c : Costs n K) (s : Opt n d K) :
    Steps s (evalStates c s) (recordEval c s) :=
  ⟨.currentCost _ _, .pbestPos _ _, .pbestCost _ _, rfl⟩

theorem topStates_steps (s : Opt n d K) (ts : List (TopState n)) (t0 t : TopState n) :
    Steps { s with top := t0 } (ts.map (fun t => { s with top := t }) ++ [{ s with top := t }])
      { s with top := t } := by
  induction ts generalizing t0 with
  | nil => exact ⟨.top { s with top := t0 } t, rfl⟩
  | cons x ts ih => exact ⟨.top { s with top := t0 } x, ih x⟩

theorem bestStates_steps (t : TopState n) (g : GBest n d K) (s : Opt n d K) :
    Steps { s with top := t } (bestStates g { s with top := t }) (recordBest t g s) :=
  ⟨.bestPos _ _, .bestCost _ _, .costHistory _ _, .meanPbestHistory _ _, .meanNeighborHistory _ _,
    .posHistory _ _, .velocityHistory _ _, rfl⟩

variable [Transc K] [FloorRing K]

theorem moveStates_steps (cfg : Config n d K) (r : Draw n d K) (iters i : Nat) (s : Opt n d K) :
    Steps s (moveStates cfg r iters i s) (moveSwarm cfg r iters i s).1 := by
  unfold moveStates moveSwarm
  cases callOptions cfg iters i r s.swarm with
  | error e => rfl
  | ok o =>
    dsimp only
    refine ⟨.options _ _, ?_⟩
    generalize computeVelocity { s.swarm with options := o } cfg.clamp cfg.vhStrategy s.vhMem
      (velBounds cfg) r.r1 r.r2 = out
    obtain ⟨vm, e | v⟩ := out
    · exact ⟨.vhMem _ _, rfl⟩
    · dsimp only
      refine ⟨.vhMem _ _, .velocity { s with vhMem := vm, swarm := { s.swarm with options := o } } v, ?_⟩
      generalize callPosition cfg r s.bhMem { s.swarm with options := o, velocity := v } = out
      obtain ⟨bm, e | p⟩ := out
      · exact ⟨.bhMem _ _, rfl⟩
      · exact ⟨.bhMem _ _, .position { s with
          vhMem := vm, bhMem := bm, swarm := { s.swarm with options := o, velocity := v } } p, rfl⟩

theorem iterateStates_steps (cfg : Config n d K) (ev : Mat n d K → Except Err (Costs n K))
    (r : Draw n d K) (iters i : Nat) (q : List Bool) (s : Opt n d K) :
    Steps s (iterateStates cfg ev r iters i q s) (iterate cfg ev r iters i q s).1 := by
  unfold iterateStates iterate
  cases ev s.swarm.position with
  | error e => rfl
  | ok c =>
    dsimp only
    rw [List.append_assoc]
    refine (evalStates_steps c s).append ?_
    generalize recordEval c s = s1
    generalize callGbest cfg r.oracle s1.top s1.swarm = out
    have htop := topStates_steps s1 (earlyStores cfg r.oracle s1.top s1.swarm) s1.top
    obtain ⟨t, e | g⟩ := out
    · exact htop t
    · dsimp only
      rw [List.cons_append, ← List.singleton_append, ← List.append_assoc]
      refine (htop t).append ((bestStates_steps t g s1).append ?_)
      generalize recordBest t g s1 = s2
      split
      · rfl
      · have := moveStates_steps cfg r iters i s2
        generalize moveSwarm cfg r iters i s2 = out at this
        obtain ⟨s3, e | _⟩ := out <;> exact this

theorem loopStates_steps (cfg : Config n d K) (ev : Nat → Mat n d K → Except Err (Costs n K))
    (env : Nat → Draw n d K) (iters m i : Nat) (q : List Bool) (s : Opt n d K) :
    Steps s (loopStates cfg ev env iters m i q s) (loop cfg ev env iters m i q s).1 := by
  induction m generalizing i q s with
  | zero => rfl
  | succ m ih =>
    have h := iterateStates_steps cfg (ev i) (env i) iters i q s
    rw [loopStates, loop]
    refine h.append ?_
    generalize iterate cfg (ev i) (env i) iters i q s = out
    obtain ⟨s', e | f⟩ := out
    · rfl
    · cases f with
      | stop => rfl
      | «continue» q' => exact ih _ _ _

theorem optimizeStates_steps (cfg : Config n d K) (ev : Nat → Mat n d K → Except Err (Costs n K))
    (iters : Nat) (nproc : Option Nat) (env : Nat → Draw n d K) (s : Opt n d K) :
    ∃ l, optimizeStates cfg ev iters nproc env s = s :: l ∧
      Steps s l (optimize cfg ev iters nproc env s).1 := by
  unfold optimizeStates optimize
  split
  · exact ⟨_, rfl, .bhMem _ _, .vhMem _ _, rfl⟩
  · refine ⟨_, rfl, ?_⟩
    refine ⟨.bhMem _ _, .vhMem _ _, .openPools _ _, .pbestCost _ _, ?_⟩
    have := loopStates_steps cfg ev env iters iters 0 [] (startState cfg nproc s)
    refine Steps.append this ?_
    dsimp only
    change Steps (loop cfg ev env iters iters 0 [] (startState cfg nproc s)).1
      (match loop cfg ev env iters iters 0 [] (startState cfg nproc s) with
        | (_, .error _) => []
        | (s5, .ok ()) =>
          match finish s5 with
          | .error _ => []
          | .ok _ => [{ s5 with openPools := s5.openPools - (if nproc.isSome then 1 else 0) }])
      (match loop cfg ev env iters iters 0 [] (startState cfg nproc s) with
        | (s1, .error e) => (s1, .error e)
        | (s1, .ok ()) =>
          match finish s1 with
          | .error e => (s1, .error e)
          | .ok r => ({ s1 with openPools := s1.openPools - (if nproc.isSome then 1 else 0) }, .ok r)
        : Opt n d K × Except Err (XR K × Vec d K)).1
    generalize loop cfg ev env iters iters 0 [] (startState cfg nproc s) = out
    obtain ⟨s1, e | _⟩ := out
    · rfl
    · dsimp only
      cases finish s1 with
      | error e => rfl
      | ok r => exact ⟨.openPools _ _, rfl⟩

theorem resetStates_steps (cfg : Config n d K) (r : InitDraw n d K) (s : Opt n d K) :
    ∃ l, resetStates cfg r s = s :: l ∧ Steps s l (reset cfg r s).1 := by
  unfold resetStates reset
  refine ⟨_, rfl, ?_⟩
  refine ⟨.costHistory _ _, .meanPbestHistory _ _, .meanNeighborHistory _ _, .posHistory _ _,
    .velocityHistory _ _, ?_⟩
  cases resetSwarm cfg r with
  | error e => rfl
  | ok sw => exact ⟨.newSwarm _ _, rfl⟩

theorem opStates_steps (cfg : Config n d K) (s : Opt n d K) (op : Op n d K) :
    ∃ l, opStates cfg s op = s :: l ∧ Steps s l (stepOp cfg s op) := by
  cases op with
  | optimize ev iters nproc env => exact optimizeStates_steps cfg ev iters nproc env s
  | reset r => exact resetStates_steps cfg r s

theorem stepEvent_mem (cfg : Config n d K) (s : Opt n d K) (e : Event n d K) :
    stepEvent cfg s e ∈ opStates cfg s e.op := by
  have hlast : ∀ op, stepOp cfg s op ∈ opStates cfg s op := by
    intro op
    obtain ⟨l, h1, h2⟩ := opStates_steps cfg s op
    rw [h1]
    exact List.mem_of_getLast? h2.isChain.2
  cases e with
  | call op => exact hlast op
  | cut op j =>
    show ((opStates cfg s op)[j]?).getD (stepOp cfg s op) ∈ opStates cfg s op
    cases h : (opStates cfg s op)[j]? with
    | none => exact hlast op
    | some x => exact List.mem_of_getElem? h

/-- Invariants of histories with interrupts. -/
theorem runEvents_inv (cfg : Config n d K) (I : Opt n d K → Prop) (P : Event n d K → Prop)
    (h : ∀ s e, P e → I s → ∀ x ∈ opStates cfg s e.op, I x) (es : List (Event n d K))
    (hes : ∀ e ∈ es, P e) (s : Opt n d K) (hs : I s) : I (runEvents cfg s es) := by
  induction es generalizing s with
  | nil => exact hs
  | cons e es ih =>
    exact ih (fun e' he => hes e' (List.mem_cons_of_mem _ he)) _
      (h s e (hes e List.mem_cons_self) hs _ (stepEvent_mem cfg s e))

/-- A property of all states of one iteration. -/
theorem iterateStates_inv (cfg : Config n d K) (ev : Mat n d K → Except Err (Costs n K))
    (r : Draw n d K) (iters i : Nat) (q : List Bool) (I J A B : Opt n d K → Prop)
    (heval : ∀ s c, J s → ev s.swarm.position = .ok c → (∀ x ∈ evalStates c s, I x) ∧
      A (recordEval c s))
    (htop : ∀ s t, A s → I { s with top := t })
    (hbest : ∀ s t g, A s → callGbest cfg r.oracle s.top s.swarm = (t, .ok g) →
      (∀ x ∈ bestStates g { s with top := t }, I x) ∧ B (recordBest t g s))
    (hmove : ∀ s, B s → ∀ x ∈ moveStates cfg r iters i s, I x)
    (s : Opt n d K) (hs : J s) : ∀ x ∈ iterateStates cfg ev r iters i q s, I x := by
  intro x hx
  unfold iterateStates at hx
  cases he : ev s.swarm.position with
  | error e => rw [he] at hx; simp at hx
  | ok c =>
    rw [he] at hx
    dsimp only at hx
    obtain ⟨h1, h2⟩ := heval s c hs he
    rw [List.mem_append, List.mem_append, List.mem_map] at hx
    rcases hx with (hx | ⟨t, -, rfl⟩) | hx
    · exact h1 x hx
    · exact htop _ t h2
    · have hb := hbest (recordEval c s)
      generalize recordEval c s = s1 at h2 hx hb
      generalize callGbest cfg r.oracle s1.top s1.swarm = out at hx hb
      obtain ⟨t, e | g⟩ := out
      · rw [List.mem_singleton] at hx; subst hx; exact htop _ t h2
      · dsimp only at hx
        obtain ⟨h3, h4⟩ := hb t g h2 rfl
        rw [List.mem_append, List.mem_cons] at hx
        rcases hx with (rfl | hx) | hx
        · exact htop _ t h2
        · exact h3 x hx
        · split at hx
          · simp at hx
          · exact hmove _ h4 x hx

theorem loopStates_inv (cfg : Config n d K) (ev : Nat → Mat n d K → Except Err (Costs n K))
    (env : Nat → Draw n d K) (iters : Nat) (I J : Opt n d K → Prop)
    (hI : ∀ i q s, J s → ∀ x ∈ iterateStates cfg (ev i) (env i) iters i q s, I x)
    (hJ : ∀ i q s, J s → J (iterate cfg (ev i) (env i) iters i q s).1)
    (m i : Nat) (q : List Bool) (s : Opt n d K) (hs : J s) :
    ∀ x ∈ loopStates cfg ev env iters m i q s, I x := by
  induction m generalizing i q s with
  | zero => intro x hx; cases hx
  | succ m ih =>
    intro x hx
    rw [loopStates, List.mem_append] at hx
    rcases hx with hx | hx
    · exact hI i q s hs x hx
    · have hj := hJ i q s hs
      generalize iterate cfg (ev i) (env i) iters i q s = out at hx hj
      obtain ⟨s', e | f⟩ := out
      · cases hx
      · cases f with
        | stop => cases hx
        | «continue» q' => exact ih _ _ _ hj x hx

/-- A property of all states of a call of `optimize` on the object `s`. -/
theorem optimizeStates_inv_of (cfg : Config n d K)
    (ev : Nat → Mat n d K → Except Err (Costs n K)) (iters : Nat) (nproc : Option Nat)
    (env : Nat → Draw n d K) (I J : Opt n d K → Prop)
    (hmem : ∀ s a b c, I s → I { s with bhMem := a, vhMem := b, openPools := c })
    (hJI : ∀ s, J s → I s)
    (hI : ∀ i q s, J s → ∀ x ∈ iterateStates cfg (ev i) (env i) iters i q s, I x)
    (hJ : ∀ i q s, J s → J (iterate cfg (ev i) (env i) iters i q s).1)
    (s : Opt n d K) (hs : I s) (h4 : J (startState cfg nproc s)) :
    ∀ x ∈ optimizeStates cfg ev iters nproc env s, I x := by
  have h1 : I { s with bhMem := (prepare cfg s).bhMem } := hmem s _ s.vhMem s.openPools hs
  have h2 : I { s with bhMem := (prepare cfg s).bhMem, vhMem := (prepare cfg s).vhMem } :=
    hmem s _ _ s.openPools hs
  have h3 : I { s with
      bhMem := (prepare cfg s).bhMem, vhMem := (prepare cfg s).vhMem
      openPools := s.openPools + (if nproc.isSome then 1 else 0) } := hmem s _ _ _ hs
  intro x hx
  unfold optimizeStates at hx
  dsimp only at hx
  split at hx
  · simp only [List.mem_cons, List.not_mem_nil, or_false] at hx
    rcases hx with rfl | rfl | rfl
    · exact hs
    · exact h1
    · exact h2
  · rw [List.mem_append, List.mem_append] at hx
    rcases hx with (hx | hx) | hx
    · simp only [List.mem_cons, List.not_mem_nil, or_false] at hx
      rcases hx with rfl | rfl | rfl | rfl | rfl
      · exact hs
      · exact h1
      · exact h2
      · exact h3
      · exact hJI _ h4
    · exact loopStates_inv cfg ev env iters I J hI hJ iters 0 [] _ h4 x hx
    · have hl := loop_inv cfg ev env iters J hJ iters 0 [] _ h4
      change x ∈ (match loop cfg ev env iters iters 0 [] (startState cfg nproc s) with
        | (_, .error _) => []
        | (s5, .ok ()) =>
          match finish s5 with
          | .error _ => []
          | .ok _ => [{ s5 with openPools := s5.openPools - (if nproc.isSome then 1 else 0) }]) at hx
      generalize loop cfg ev env iters iters 0 [] (startState cfg nproc s) = out at hl hx
      obtain ⟨s5, e | _⟩ := out
      · cases hx
      · dsimp only at hx
        cases hf : finish s5 with
        | error e => rw [hf] at hx; cases hx
        | ok v =>
          rw [hf] at hx
          rw [List.mem_singleton] at hx
          subst hx
          exact hmem _ _ _ _ (hJI _ hl)

/-- A property of all states of a call of `optimize`. -/
theorem optimizeStates_inv (cfg : Config n d K) (ev : Nat → Mat n d K → Except Err (Costs n K))
    (iters : Nat) (nproc : Option Nat) (env : Nat → Draw n d K) (I J : Opt n d K → Prop)
    (hmem : ∀ s a b c, I s → I { s with bhMem := a, vhMem := b, openPools := c })
    (hstart : ∀ s, I s → J (startState cfg nproc s))
    (hJI : ∀ s, J s → I s)
    (hI : ∀ i q s, J s → ∀ x ∈ iterateStates cfg (ev i) (env i) iters i q s, I x)
    (hJ : ∀ i q s, J s → J (iterate cfg (ev i) (env i) iters i q s).1)
    (s : Opt n d K) (hs : I s) : ∀ x ∈ optimizeStates cfg ev iters nproc env s, I x :=
  optimizeStates_inv_of cfg ev iters nproc env I J hmem hJI hI hJ s hs (hstart s hs)

/-- A property of all states of a call of `reset`. -/
theorem resetStates_inv (cfg : Config n d K) (r : InitDraw n d K) (I : Opt n d K → Prop)
    (h1 : ∀ s, I s → I { s with costHistory := [] })
    (h2 : ∀ s, I s → I { s with meanPbestHistory := [] })
    (h3 : ∀ s, I s → I { s with meanNeighborHistory := [] })
    (h4 : ∀ s, I s → I { s with posHistory := [] })
    (h5 : ∀ s, I s → I { s with velocityHistory := [] })
    (hnew : ∀ (s : Opt n d K) sw, I s → resetSwarm cfg r = .ok sw →
      I { swarm := sw, top := s.top, bhMem := s.bhMem, vhMem := s.vhMem, openPools := s.openPools })
    (s : Opt n d K) (hs : I s) : ∀ x ∈ resetStates cfg r s, I x := by
  intro x hx
  unfold resetStates at hx
  dsimp only at hx
  rw [List.mem_append] at hx
  rcases hx with hx | hx
  · simp only [List.mem_cons, List.not_mem_nil, or_false] at hx
    rcases hx with rfl | rfl | rfl | rfl | rfl | rfl
    · exact hs
    · exact h1 _ hs
    · exact h2 _ (h1 _ hs)
    · exact h3 _ (h2 _ (h1 _ hs))
    · exact h4 _ (h3 _ (h2 _ (h1 _ hs)))
    · exact h5 _ (h4 _ (h3 _ (h2 _ (h1 _ hs))))
  · cases hsw : resetSwarm cfg r with
    | error e => rw [hsw] at hx; cases hx
    | ok sw =>
      rw [hsw] at hx
      rw [List.mem_singleton] at hx
      subst hx
      exact hnew s sw hs hsw

/-- The assignments of the second half of the loop body change nothing but the options, velocities,
positions and handler memories. -/
theorem moveStates_frame (cfg : Config n d K) (r : Draw n d K) (iters i : Nat) (s : Opt n d K) :
    ∀ x ∈ moveStates cfg r iters i s, ∃ o vm v bm p, x = { s with
      vhMem := vm, bhMem := bm
      swarm := { s.swarm with options := o, velocity := v, position := p } } := by
  intro x hx
  unfold moveStates at hx
  cases hco : callOptions cfg iters i r s.swarm with
  | error e => rw [hco] at hx; cases hx
  | ok o =>
    rw [hco] at hx
    dsimp only at hx
    rw [List.mem_cons] at hx
    rcases hx with rfl | hx
    · exact ⟨o, _, _, _, _, rfl⟩
    · generalize computeVelocity { s.swarm with options := o } cfg.clamp cfg.vhStrategy s.vhMem
        (velBounds cfg) r.r1 r.r2 = out at hx
      obtain ⟨vm, e | v⟩ := out
      · rw [List.mem_singleton] at hx; subst hx; exact ⟨o, vm, _, _, _, rfl⟩
      · dsimp only at hx
        simp only [List.mem_cons] at hx
        rcases hx with rfl | rfl | hx
        · exact ⟨o, vm, _, _, _, rfl⟩
        · exact ⟨o, vm, v, _, _, rfl⟩
        · generalize callPosition cfg r s.bhMem { s.swarm with options := o, velocity := v } = out
            at hx
          obtain ⟨bm, e | p⟩ := out
          · rw [List.mem_singleton] at hx; subst hx; exact ⟨o, vm, v, bm, _, rfl⟩
          · simp only [List.mem_cons, List.not_mem_nil, or_false] at hx
            rcases hx with rfl | rfl
            · exact ⟨o, vm, v, bm, _, rfl⟩
            · exact ⟨o, vm, v, bm, p, rfl⟩

/-- Every state of the second half of the loop body is the one before it, or has the options, velocity,
position and memories that the completed calls computed. -/
theorem moveStates_cases (cfg : Config n d K) (r : Draw n d K) (iters i : Nat) (s : Opt n d K) :
    ∀ x ∈ moveStates cfg r iters i s, ∃ o, callOptions cfg iters i r s.swarm = .ok o ∧
      (x = { s with swarm := { s.swarm with options := o } } ∨
      ∃ vm y, computeVelocity { s.swarm with options := o } cfg.clamp cfg.vhStrategy s.vhMem
          (velBounds cfg) r.r1 r.r2 = (vm, y) ∧
        (x = { s with vhMem := vm, swarm := { s.swarm with options := o } } ∨
        ∃ v, y = .ok v ∧
          (x = { s with vhMem := vm, swarm := { s.swarm with options := o, velocity := v } } ∨
          ∃ bm z, callPosition cfg r s.bhMem { s.swarm with options := o, velocity := v } = (bm, z) ∧
            (x = { s with
                vhMem := vm, bhMem := bm, swarm := { s.swarm with options := o, velocity := v } } ∨
            ∃ p, z = .ok p ∧ x = { s with
              vhMem := vm, bhMem := bm
              swarm := { s.swarm with options := o, velocity := v, position := p } })))) := by
  intro x hx
  unfold moveStates at hx
  cases hco : callOptions cfg iters i r s.swarm with
  | error e => rw [hco] at hx; cases hx
  | ok o =>
    rw [hco] at hx
    refine ⟨o, rfl, ?_⟩
    dsimp only at hx
    rw [List.mem_cons] at hx
    rcases hx with rfl | hx
    · exact Or.inl rfl
    · right
      generalize computeVelocity { s.swarm with options := o } cfg.clamp cfg.vhStrategy s.vhMem
        (velBounds cfg) r.r1 r.r2 = out at hx
      obtain ⟨vm, e | v⟩ := out
      · rw [List.mem_singleton] at hx; subst hx; exact ⟨vm, _, rfl, Or.inl rfl⟩
      · dsimp only at hx
        refine ⟨vm, _, rfl, ?_⟩
        simp only [List.mem_cons] at hx
        rcases hx with rfl | rfl | hx
        · exact Or.inl rfl
        · exact Or.inr ⟨v, rfl, Or.inl rfl⟩
        · right
          refine ⟨v, rfl, Or.inr ?_⟩
          generalize callPosition cfg r s.bhMem { s.swarm with options := o, velocity := v } = out
            at hx
          obtain ⟨bm, e | p⟩ := out
          · rw [List.mem_singleton] at hx; subst hx; exact ⟨bm, _, rfl, Or.inl rfl⟩
          · refine ⟨bm, _, rfl, ?_⟩
            simp only [List.mem_cons, List.not_mem_nil, or_false] at hx
            rcases hx with rfl | rfl
            · exact Or.inl rfl
            · exact Or.inr ⟨p, rfl, rfl⟩

end PySwarms
