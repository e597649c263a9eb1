import Verif.Lemmas.Loop
import Verif.Spec

/-! Lifting invariants of one iteration to `optimize` calls and to whole histories of API calls. -/

set_option linter.unusedSectionVars false

namespace PySwarms

variable {n d : Nat} {K : Type} [Field K] [LinearOrder K] [Transc K] [FloorRing K]

/-- The state in which the loop of `optimize` starts. -/
def startState (cfg : Config n d K) (nproc : Option Nat) (s : Opt n d K) : Opt n d K :=
  { prepare cfg s with openPools := s.openPools + (if nproc.isSome then 1 else 0) }

/-- All the ways a call of `optimize` can end. -/
inductive OptCase (cfg : Config n d K) (ev : Nat → Mat n d K → Except Err (Costs n K))
    (iters : Nat) (nproc : Option Nat) (env : Nat → Draw n d K) (s : Opt n d K) :
    Opt n d K → Except Err (XR K × Vec d K) → Prop
  | badPool (h : nproc = some 0) :
      OptCase cfg ev iters nproc env s
        { s with bhMem := (prepare cfg s).bhMem, vhMem := (prepare cfg s).vhMem }
        (.error .valueError)
  | loopError (s1 : Opt n d K) (e : Err) (hp : nproc ≠ some 0)
      (h : loop cfg ev env iters iters 0 [] (startState cfg nproc s) = (s1, .error e)) :
      OptCase cfg ev iters nproc env s s1 (.error e)
  | finishError (s1 : Opt n d K) (e : Err) (hp : nproc ≠ some 0)
      (h : loop cfg ev env iters iters 0 [] (startState cfg nproc s) = (s1, .ok ()))
      (hf : finish s1 = .error e) :
      OptCase cfg ev iters nproc env s s1 (.error e)
  | done (s1 : Opt n d K) (r : XR K × Vec d K) (hp : nproc ≠ some 0)
      (h : loop cfg ev env iters iters 0 [] (startState cfg nproc s) = (s1, .ok ()))
      (hf : finish s1 = .ok r) :
      OptCase cfg ev iters nproc env s
        { s1 with openPools := s1.openPools - (if nproc.isSome then 1 else 0) } (.ok r)

theorem optimize_cases (cfg : Config n d K) (ev : Nat → Mat n d K → Except Err (Costs n K))
    (iters : Nat) (nproc : Option Nat) (env : Nat → Draw n d K) (s : Opt n d K) :
    OptCase cfg ev iters nproc env s (optimize cfg ev iters nproc env s).1
      (optimize cfg ev iters nproc env s).2 := by
  unfold optimize
  split
  · next h => exact .badPool h
  · next hp =>
    simp only []
    split
    · next s1 e h => exact .loopError s1 e hp h
    · next s1 h =>
      split
      · next e hf => exact .finishError s1 e hp h hf
      · next r hf => exact .done s1 r hp h hf

/-- Invariants that ignore handler memories and pools lift from `iterate` to `optimize`. -/
theorem optimize_inv (cfg : Config n d K) (ev : Nat → Mat n d K → Except Err (Costs n K))
    (iters : Nat) (nproc : Option Nat) (env : Nat → Draw n d K) (I : Opt n d K → Prop)
    (hmem : ∀ s a b c, I s → I { s with bhMem := a, vhMem := b, openPools := c })
    (hprep : ∀ s : Opt n d K, I s →
      I { s with swarm := { s.swarm with pbestCost := fun _ => XR.pinf } })
    (hiter : ∀ i q s, I s → I (iterate cfg (ev i) (env i) iters i q s).1)
    (s : Opt n d K) (hs : I s) : I (optimize cfg ev iters nproc env s).1 := by
  have hc := optimize_cases cfg ev iters nproc env s
  have h0 : I (startState cfg nproc s) := by
    have := hmem _ (prepare cfg s).bhMem (prepare cfg s).vhMem
      (s.openPools + (if nproc.isSome then 1 else 0)) (hprep s hs)
    exact this
  have hl := loop_inv cfg ev env iters I hiter iters 0 [] _ h0
  generalize (optimize cfg ev iters nproc env s).1 = s' at hc ⊢
  generalize (optimize cfg ev iters nproc env s).2 = o at hc
  cases hc with
  | badPool h => exact hmem s _ _ s.openPools hs
  | loopError s1 e hp h => rw [h] at hl; exact hl
  | finishError s1 e hp h hf => rw [h] at hl; exact hl
  | done r hp s1 h hf =>
    rw [h] at hl
    exact hmem _ _ _ _ hl

/-- Whether `create_swarm` succeeds depends only on the configuration. -/
theorem resetSwarm_ok_indep (cfg : Config n d K) (r1 r2 : InitDraw n d K) (sw : Swarm n d K)
    (h : resetSwarm cfg r1 = .ok sw) : ∃ sw', resetSwarm cfg r2 = .ok sw' := by
  unfold resetSwarm createSwarm at *
  cases hb : cfg.isBinary
  · simp only [hb, Bool.false_eq_true, if_false] at h ⊢
    unfold generateSwarm at *
    cases hp : cfg.initPos <;> cases hbd : cfg.bounds <;> simp only [hp, hbd] at h ⊢
    · exact ⟨_, rfl⟩
    · exact ⟨_, rfl⟩
    · exact ⟨_, rfl⟩
    · split at h
      · cases h
      · next p heq =>
        split at heq
        · next hcond => exact ⟨_, rfl⟩
        · cases heq
  · simp only [hb, if_true] at h ⊢
    unfold generateDiscreteSwarm at *
    cases hp : cfg.initPos <;> simp only [hp] at h ⊢
    · exact ⟨_, rfl⟩
    · split at h
      · cases h
      · next p heq =>
        split at heq
        · cases heq
        · next hcond => exact ⟨_, rfl⟩

theorem construct_ok (cfg : Config n d K) (r1 r2 : InitDraw n d K) (s : Opt n d K)
    (h : construct cfg r1 r2 = .ok s) :
    ∃ sw, resetSwarm cfg r2 = .ok sw ∧ s = { swarm := sw } := by
  unfold construct at h
  split at h
  · cases h
  · split at h
    · cases h
    · split at h
      · cases h
      · split at h
        · cases h
        · next sw hsw => cases h; exact ⟨sw, hsw, rfl⟩

theorem reset_ok (cfg : Config n d K) (r : InitDraw n d K) (s s' : Opt n d K)
    (h : reset cfg r s = (s', .ok ())) :
    ∃ sw, resetSwarm cfg r = .ok sw ∧
      s' = { swarm := sw, top := s.top, bhMem := s.bhMem, vhMem := s.vhMem,
             openPools := s.openPools } := by
  unfold reset at h
  dsimp only at h
  split at h
  · cases h
  · next sw hsw => cases h; exact ⟨sw, hsw, rfl⟩

theorem fresh_cases (cfg : Config n d K) (s : Opt n d K) (h : Fresh cfg s) :
    ∃ r sw t a b p, resetSwarm cfg r = .ok sw ∧
      s = { swarm := sw, top := t, bhMem := a, vhMem := b, openPools := p } := by
  rcases h with ⟨r1, r2, h⟩ | ⟨s0, r, h⟩
  · obtain ⟨sw, h1, rfl⟩ := construct_ok cfg r1 r2 s h
    exact ⟨r2, sw, {}, none, none, 0, h1, rfl⟩
  · obtain ⟨sw, h1, rfl⟩ := reset_ok cfg r s0 s h
    exact ⟨r, sw, _, _, _, _, h1, rfl⟩

/-- Invariants of fresh states and of `optimize` hold in every reachable state. -/
theorem reachable_inv (cfg : Config n d K) (I : Opt n d K → Prop)
    (h0 : ∀ r sw t a b p, resetSwarm cfg r = .ok sw →
      I { swarm := sw, top := t, bhMem := a, vhMem := b, openPools := p })
    (hop : ∀ ev iters nproc env s, I s → I (optimize cfg ev iters nproc env s).1)
    (s : Opt n d K) (hs : Reachable cfg s) : I s := by
  obtain ⟨r1, r2, s0, ops, hc, rfl⟩ := hs
  obtain ⟨sw, hsw, rfl⟩ := construct_ok cfg r1 r2 s0 hc
  have hI := h0 r2 sw {} none none 0 hsw
  generalize ({ swarm := sw } : Opt n d K) = s1 at hI
  clear hc
  induction ops generalizing s1 with
  | nil => exact hI
  | cons op ops ih =>
    apply ih
    cases op with
    | optimize ev iters nproc env => exact hop ev iters nproc env s1 hI
    | reset r =>
      obtain ⟨sw', hsw'⟩ := resetSwarm_ok_indep cfg r2 r sw hsw
      simp only [stepOp, reset, hsw']
      exact h0 r sw' s1.top s1.bhMem s1.vhMem s1.openPools hsw'

theorem fresh_reachable_init (cfg : Config n d K) (r : InitDraw n d K) (sw : Swarm n d K)
    (h : resetSwarm cfg r = .ok sw) :
    sw.pbestCost = (fun _ => XR.pinf) ∧ sw.bestCost = none ∧ sw.bestPos = .empty ∧
      sw.pbestPos = sw.position ∧ sw.options = cfg.options := by
  unfold resetSwarm createSwarm at h
  dsimp only at h
  split at h
  · cases h
  · cases h; simp [mkSwarm]

end PySwarms
