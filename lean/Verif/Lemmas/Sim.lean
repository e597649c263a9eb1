import Verif.Lemmas.First

/-! Simulations: two optimizers run side by side. -/

set_option linter.unusedSectionVars false

namespace PySwarms

variable {n d : Nat} {K : Type} [Field K] [LinearOrder K] [Transc K] [FloorRing K]

/-- Same exception, or related results. -/
def ExRel {α β : Type} (P : α → β → Prop) : Except Err α → Except Err β → Prop
  | .error e, .error e' => e = e'
  | .ok a, .ok b => P a b
  | _, _ => False

theorem exRel_error {α β : Type} {P : α → β → Prop} {e : Err} {y : Except Err β}
    (h : ExRel P (.error e) y) : y = .error e := by
  cases y with
  | error e' => exact congrArg _ h.symm
  | ok b => exact h.elim

theorem exRel_ok {α β : Type} {P : α → β → Prop} {a : α} {y : Except Err β}
    (h : ExRel P (.ok a) y) : ∃ b, y = .ok b ∧ P a b := by
  cases y with
  | error e' => exact h.elim
  | ok b => exact ⟨b, rfl, h⟩

theorem iterate_sim (cfg cfg' : Config n d K) (ev ev' : Mat n d K → Except Err (Costs n K))
    (r r' : Draw n d K) (iters i : Nat) (q : List Bool) (R : Opt n d K → Opt n d K → Prop)
    (hev : ∀ s s', R s s' → ExRel (fun c c' => R (recordEval c s) (recordEval c' s'))
      (ev s.swarm.position) (ev' s'.swarm.position))
    (hg : ∀ s s', R s s' →
      R { s with top := (callGbest cfg r.oracle s.top s.swarm).1 }
        { s' with top := (callGbest cfg' r'.oracle s'.top s'.swarm).1 } ∧
      ExRel (fun g g' =>
          R (recordBest (callGbest cfg r.oracle s.top s.swarm).1 g s)
            (recordBest (callGbest cfg' r'.oracle s'.top s'.swarm).1 g' s') ∧
          ftolDelta cfg.ftol (g.2.getD XR.pinf) s.swarm.bestCostVal =
            ftolDelta cfg'.ftol (g'.2.getD XR.pinf) s'.swarm.bestCostVal)
        (callGbest cfg r.oracle s.top s.swarm).2 (callGbest cfg' r'.oracle s'.top s'.swarm).2)
    (hw : cfg.window = cfg'.window)
    (hm : ∀ s s', R s s' → R (moveSwarm cfg r iters i s).1 (moveSwarm cfg' r' iters i s').1 ∧
      (moveSwarm cfg r iters i s).2 = (moveSwarm cfg' r' iters i s').2)
    (s s' : Opt n d K) (hs : R s s') :
    R (iterate cfg ev r iters i q s).1 (iterate cfg' ev' r' iters i q s').1 ∧
      (iterate cfg ev r iters i q s).2 = (iterate cfg' ev' r' iters i q s').2 := by
  have h1 := hev s s' hs
  unfold iterate
  cases he : ev s.swarm.position with
  | error e =>
    rw [he] at h1
    rw [exRel_error h1]
    exact ⟨hs, rfl⟩
  | ok c =>
    rw [he] at h1
    obtain ⟨c', he', h1⟩ := exRel_ok h1
    rw [he']
    dsimp only
    obtain ⟨h2, h3⟩ := hg _ _ h1
    generalize callGbest cfg r.oracle (recordEval c s).top (recordEval c s).swarm = o at h2 h3
    generalize callGbest cfg' r'.oracle (recordEval c' s').top (recordEval c' s').swarm = o' at h2 h3
    obtain ⟨t, o⟩ := o
    obtain ⟨t', o'⟩ := o'
    simp only at h2 h3
    cases o with
    | error e =>
      have h4 := exRel_error h3
      subst h4
      exact ⟨h2, rfl⟩
    | ok g =>
      obtain ⟨g', rfl, h4, h5⟩ := exRel_ok h3
      dsimp only
      have e1 : (recordBest t g (recordEval c s)).swarm.bestCostVal = g.2.getD XR.pinf := rfl
      have e2 : (recordBest t' g' (recordEval c' s')).swarm.bestCostVal = g'.2.getD XR.pinf := rfl
      rw [e1, e2, ← hw, ← h5]
      split
      · exact ⟨h4, rfl⟩
      · obtain ⟨h6, h7⟩ := hm _ _ h4
        generalize moveSwarm cfg r iters i (recordBest t g (recordEval c s)) = o at h6 h7
        generalize moveSwarm cfg' r' iters i (recordBest t' g' (recordEval c' s')) = o' at h6 h7
        obtain ⟨s1, o⟩ := o
        obtain ⟨s1', o'⟩ := o'
        simp only at h7
        subst h7
        cases o with
        | error e => exact ⟨h6, rfl⟩
        | ok u => exact ⟨h6, rfl⟩

theorem loop_sim (cfg cfg' : Config n d K) (ev ev' : Nat → Mat n d K → Except Err (Costs n K))
    (env env' : Nat → Draw n d K) (iters : Nat) (R : Opt n d K → Opt n d K → Prop)
    (h : ∀ i q s s', R s s' →
      R (iterate cfg (ev i) (env i) iters i q s).1 (iterate cfg' (ev' i) (env' i) iters i q s').1 ∧
      (iterate cfg (ev i) (env i) iters i q s).2 = (iterate cfg' (ev' i) (env' i) iters i q s').2)
    (m i : Nat) (q : List Bool) (s s' : Opt n d K) (hs : R s s') :
    R (loop cfg ev env iters m i q s).1 (loop cfg' ev' env' iters m i q s').1 ∧
      (loop cfg ev env iters m i q s).2 = (loop cfg' ev' env' iters m i q s').2 := by
  induction m generalizing i q s s' with
  | zero => exact ⟨hs, rfl⟩
  | succ m ih =>
    obtain ⟨h1, h2⟩ := h i q s s' hs
    rw [loop, loop]
    generalize iterate cfg (ev i) (env i) iters i q s = o at h1 h2
    generalize iterate cfg' (ev' i) (env' i) iters i q s' = o' at h1 h2
    obtain ⟨s1, o⟩ := o
    obtain ⟨s1', o'⟩ := o'
    simp only at h2
    subst h2
    rcases o with e | f
    · exact ⟨h1, rfl⟩
    · cases f with
      | stop => exact ⟨h1, rfl⟩
      | «continue» q' => exact ih _ _ _ _ h1

theorem optimize_sim (cfg cfg' : Config n d K) (ev ev' : Nat → Mat n d K → Except Err (Costs n K))
    (iters : Nat) (nproc : Option Nat) (env env' : Nat → Draw n d K)
    (S R : Opt n d K → Opt n d K → Prop) (P : XR K × Vec d K → XR K × Vec d K → Prop)
    (hstart : ∀ s s', S s s' → R (startState cfg nproc s) (startState cfg' nproc s'))
    (hbad : ∀ s s', S s s' → S
      { s with bhMem := (prepare cfg s).bhMem, vhMem := (prepare cfg s).vhMem }
      { s' with bhMem := (prepare cfg' s').bhMem, vhMem := (prepare cfg' s').vhMem })
    (h : ∀ i q s s', R s s' →
      R (iterate cfg (ev i) (env i) iters i q s).1 (iterate cfg' (ev' i) (env' i) iters i q s').1 ∧
      (iterate cfg (ev i) (env i) iters i q s).2 = (iterate cfg' (ev' i) (env' i) iters i q s').2)
    (hfin : ∀ s s', R s s' → ExRel P (finish s) (finish s'))
    (hend : ∀ s s', R s s' → S s s')
    (hend' : ∀ s s', R s s' → S
      { s with openPools := s.openPools - (if nproc.isSome then 1 else 0) }
      { s' with openPools := s'.openPools - (if nproc.isSome then 1 else 0) })
    (s s' : Opt n d K) (hs : S s s') :
    S (optimize cfg ev iters nproc env s).1 (optimize cfg' ev' iters nproc env' s').1 ∧
      ExRel P (optimize cfg ev iters nproc env s).2 (optimize cfg' ev' iters nproc env' s').2 := by
  obtain ⟨h1, h2⟩ := loop_sim cfg cfg' ev ev' env env' iters R h iters 0 [] _ _ (hstart s s' hs)
  unfold startState at h1 h2
  unfold optimize
  split
  · exact ⟨hbad s s' hs, rfl⟩
  · dsimp only
    generalize loop cfg ev env iters iters 0 [] { prepare cfg s with
      openPools := s.openPools + (if nproc.isSome then 1 else 0) } = o at h1 h2
    generalize loop cfg' ev' env' iters iters 0 [] { prepare cfg' s' with
      openPools := s'.openPools + (if nproc.isSome then 1 else 0) } = o' at h1 h2
    obtain ⟨s1, o⟩ := o
    obtain ⟨s1', o'⟩ := o'
    simp only at h2 h1
    subst h2
    rcases o with e | u
    · exact ⟨hend _ _ h1, rfl⟩
    · dsimp only
      have hf := hfin _ _ h1
      generalize finish s1 = f at hf
      cases f with
      | error e => rw [exRel_error hf]; exact ⟨hend _ _ h1, rfl⟩
      | ok r =>
        obtain ⟨r', hr', hP⟩ := exRel_ok hf
        rw [hr']
        exact ⟨hend' _ _ h1, hP⟩

end PySwarms
