import Verif.Lemmas.Reentrant
import Verif.Props.Bounds

/-!
# Objectives that use the optimizer they are evaluated for (C101)
-/

set_option linter.unusedSectionVars false

namespace PySwarms

variable {n d : Nat} {K : Type} [Field K] [LinearOrder K] [Transc K] [FloorRing K]

/-! ## Specification -/

/-- All random numbers used by the script, at any depth, are in [0, 1). -/
def Script.Legal (p : Script n d K) : Prop := p.Draws InitDraw.Legal Draw.Legal

/-- What the optimizer shows at evaluation `j` of a call (counting from 0) that started in state `s`
and has evaluated the positions `A` before: the positions about to be evaluated are `x`, the recorded
positions end with `A`, one history entry has been added per finished evaluation, `best_cost` is the
last of them, and `current_cost` is what the *previous* evaluation returned. -/
structure ShowsAt (s : Opt n d K) (A : List (Mat n d K)) (x : Mat n d K)
    (previous : Option (Except Err (Costs n K))) (seen : Opt n d K) : Prop where
  position : seen.swarm.position = x
  recorded : seen.posHistory = s.posHistory ++ A
  entries : seen.costHistory.length = s.costHistory.length + A.length
  best : A ≠ [] → seen.costHistory.getLast? = some seen.swarm.bestCostVal
  current : ∀ c, previous = some c → c = .ok seen.swarm.currentCost

/-! ## Objectives that only look -/

/-- C101 (looking is harmless): a call with an objective that looks at the optimizer as much as it
likes, and lets its result depend on what it sees, is an ordinary call, with the objective that
returns the same answers: same result or exception, same final state.  So everything proved about
ordinary calls holds for it.  What it sees at evaluation `j` (`seen j`) is as `ShowsAt` says: nothing
about evaluation `j` itself, everything about the ones before; and the `cost_history` it sees is
the beginning of the final one. -/
theorem C101_reads (cfg : Config n d K) (obj : Nat → Mat n d K → Script n d K)
    (hobj : ∀ i x, (obj i x).Reads) (iters : Nat) (env : Nat → Draw n d K) (σ : Live n d K) :
    ∃ (ev : Nat → Mat n d K → Except Err (Costs n K)) (seen : Nat → Opt n d K)
      (A : List (Mat n d K)),
      let l := σ.optimize cfg (fun i x => (obj i x).run cfg) iters env
      let o := optimize cfg ev iters none env σ.opt
      (∀ i x, ev i x = (obj i x).answer (seen i)) ∧
      l.2 = o.2 ∧ l.1.opt = o.1 ∧
      l.1.asked = σ.asked ++ A ∧ A.length ≤ iters ∧
      ∀ (j : Nat) (hj : j < A.length),
        ShowsAt σ.opt (A.take j) A[j]
          (if h : 0 < j then some (ev (j - 1) A[j - 1]) else none) (seen j) ∧
        (seen j).costHistory <+: o.1.costHistory := by
  obtain ⟨see, A, h⟩ := Live.loop_reads (cfg := cfg) hobj env iters iters 0 []
    { σ with opt := prepare cfg σ.opt, primed := true } rfl
  refine ⟨fun i x => (obj i x).answer (see i), see, A, ?_⟩
  obtain ⟨h1, h2, h3, h4, -, h6⟩ := h (fun i x => (obj i x).answer (see i)) (fun _ _ _ => rfl)
  dsimp only at h1 h2 h3 h4 h6 ⊢
  refine ⟨fun _ _ => rfl, ?_⟩
  have hs : ({ prepare cfg σ.opt with openPools := σ.opt.openPools + 0 } : Opt n d K) =
    prepare cfg σ.opt := rfl
  have hfin : ∀ s : Opt n d K, ({ s with openPools := s.openPools - 0 } : Opt n d K) = s :=
    fun _ => rfl
  have key : (σ.optimize cfg (fun i x => (obj i x).run cfg) iters env).2 =
      (optimize cfg (fun i x => (obj i x).answer (see i)) iters none env σ.opt).2 ∧
    (σ.optimize cfg (fun i x => (obj i x).run cfg) iters env).1.opt =
      (optimize cfg (fun i x => (obj i x).answer (see i)) iters none env σ.opt).1 ∧
    (σ.optimize cfg (fun i x => (obj i x).run cfg) iters env).1.asked = σ.asked ++ A ∧
    (optimize cfg (fun i x => (obj i x).answer (see i)) iters none env σ.opt).1.costHistory =
      (loop cfg (fun i x => (obj i x).answer (see i)) env iters iters 0 []
        (prepare cfg σ.opt)).1.costHistory := by
    unfold Live.optimize optimize
    rw [if_neg (by simp)]
    simp only [Option.isSome_none, Bool.false_eq_true, if_false]
    rw [hs]
    generalize Live.loop cfg (fun i x => (obj i x).run cfg) env iters iters 0 []
      { σ with opt := prepare cfg σ.opt, primed := true } = lo at h1 h2 h3 ⊢
    generalize loop cfg (fun i x => (obj i x).answer (see i)) env iters iters 0 []
      (prepare cfg σ.opt) = lp at h1 h2 h3 ⊢
    obtain ⟨σ1, f⟩ := lo
    obtain ⟨s1, g⟩ := lp
    dsimp only at h1 h2 h3
    subst h1 h2
    cases f with
    | error e => exact ⟨rfl, rfl, h3, rfl⟩
    | ok u =>
      dsimp only
      cases hf : finish σ1.opt with
      | error e => exact ⟨rfl, rfl, h3, rfl⟩
      | ok v => exact ⟨rfl, (hfin _).symm, h3, rfl⟩
  refine ⟨key.1, key.2.1, key.2.2.1, h4, fun j hj => ?_⟩
  obtain ⟨g1, g2, g3, g4, g5⟩ := h6 j hj
  simp only [Nat.zero_add] at g1 g2 g3 g4 g5
  refine ⟨⟨g1, g2, ?_, ?_, ?_⟩, by rw [key.2.2.2]; exact g4⟩
  · rw [g3, List.length_take, Nat.min_eq_left (le_of_lt hj)]; rfl
  · intro hA
    cases j with
    | zero => simp at hA
    | succ k => exact (g5 k rfl).2
  · intro c hc
    cases j with
    | zero => simp at hc
    | succ k =>
      have hk := (g5 k rfl).1
      simp only [Nat.zero_lt_succ, dite_true, Option.some.injEq, Nat.add_sub_cancel] at hc
      rw [← hc]
      have hpos : (see k).swarm.position = A[k] := by simpa using (h6 k (by omega)).1
      rw [← hpos]
      exact hk

/-! ## Objectives that reset the optimizer -/

/-- C101 (an objective cannot restart its own run): if the first `t` evaluations of a call only look
and evaluation `t` ends with a `reset()` of the optimizer (say, to restart when the search has got
stuck), then – unless the call is over before – it raises: `ValueError`, or what the objective itself
raises.  The optimizer is left newly reset, and all histories are lost. -/
theorem C101_reset (hn : n ≠ 1) (cfg : Config n d K) (r1 r2 : InitDraw n d K) (s0 : Opt n d K)
    (hc : construct cfg r1 r2 = .ok s0) (obj : Nat → Mat n d K → Script n d K) (t : Nat)
    (hread : ∀ i, i < t → ∀ x, (obj i x).Reads) (hres : ∀ x, (obj t x).EndsInReset)
    (iters : Nat) (env : Nat → Draw n d K) (σ : Live n d K) :
    let l := σ.optimize cfg (fun i x => (obj i x).run cfg) iters env
    (∃ A, l.1.asked = σ.asked ++ A ∧ A.length ≤ t) ∨
      (∃ e, l.2 = .error e ∧
        (e = .valueError ∨ ∃ x τ, ((obj t x).run cfg τ).2 = .error e)) ∧ l.1.Renewed cfg := by
  obtain ⟨sw, hsw, -⟩ := construct_ok cfg r1 r2 s0 hc
  have h := Live.loop_reset (cfg := cfg) (fun r => resetSwarm_ok_indep cfg r2 r sw hsw) hn hread
    hres env iters iters 0 [] { σ with opt := prepare cfg σ.opt, primed := true } rfl
    (Nat.zero_le _)
  dsimp only at h ⊢
  unfold Live.optimize
  generalize Live.loop cfg (fun i x => (obj i x).run cfg) env iters iters 0 []
    { σ with opt := prepare cfg σ.opt, primed := true } = lo at h ⊢
  obtain ⟨σ1, f⟩ := lo
  cases f with
  | error e =>
    rcases h with h | ⟨h1, e', h2, h3⟩
    · exact Or.inl h
    · cases h2
      exact Or.inr ⟨⟨e, rfl, h3⟩, h1⟩
  | ok u =>
    rcases h with h | ⟨h1, e, h2, h3⟩
    · exact Or.inl h
    · cases h2

/-! ## Arbitrary programs -/

/-- The invariants of a program that starts with a new optimizer. -/
theorem Script.run_new {cfg : Config n d K} {I J : Live n d K → Prop} {P : Mat n d K → Prop}
    {r1 r2 : InitDraw n d K} {s0 : Opt n d K} (hr2 : r2.Legal)
    (hc : construct cfg r1 r2 = .ok s0) (hJI : ∀ σ, J σ → I σ)
    (hnew : ∀ r sw t a b p A, InitDraw.Legal r → resetSwarm cfg r = .ok sw →
      (∀ x ∈ A, P x) → I ⟨{ swarm := sw, top := t, bhMem := a, vhMem := b, openPools := p },
        false, A, []⟩)
    (hnewJ : ∀ σ r sw, InitDraw.Legal r → resetSwarm cfg r = .ok sw → J σ →
      J ⟨{ swarm := sw, top := σ.opt.top, bhMem := σ.opt.bhMem, vhMem := σ.opt.vhMem
           openPools := σ.opt.openPools }, false, σ.asked, []⟩)
    (hasked : ∀ σ, I σ → ∀ x ∈ σ.asked, P x)
    (hask : ∀ σ, J σ → J { σ with asked := σ.asked ++ [σ.opt.swarm.position] } ∧
      P σ.opt.swarm.position)
    (hstart : ∀ σ, I σ → J { σ with opt := prepare cfg σ.opt, primed := true })
    (hrec : ∀ r σ x c iters i q, Draw.Legal r → J σ → σ.primed = true → P x →
      J { σ with opt := (PySwarms.iterate cfg (fun _ => .ok c) r iters i q σ.opt).1,
                 heard := σ.heard ++ [(x, c)] })
    (hcur : ∀ σ c, J σ →
      J { σ with opt := { σ.opt with swarm := { σ.opt.swarm with currentCost := c } } })
    {p : Script n d K} (hp : p.Legal) : I (p.run cfg { opt := s0 }).1 := by
  obtain ⟨sw, hsw, rfl⟩ := construct_ok cfg r1 r2 s0 hc
  refine (Script.run_inv (I := I) (J := J) (P := P) hJI hask ?_ ?_ hstart hrec hcur hp _).1 ?_
  · intro r σ hr hI
    obtain ⟨sw', h⟩ := resetSwarm_ok_indep cfg r2 r sw hsw
    rw [Live.reset_ok h]
    exact hnew r sw' _ _ _ _ _ hr h (hasked σ hI)
  · intro r σ hr hJ
    obtain ⟨sw', h⟩ := resetSwarm_ok_indep cfg r2 r sw hsw
    rw [Live.reset_ok h]
    exact hnewJ σ r sw' hr h hJ
  · exact hnew r2 sw {} none none 0 [] hr2 hsw (fun x hx => by simp at hx)

/-- C101 (bounds): whatever a program and its objectives do with the optimizer – looking, resetting,
optimizing again from inside an evaluation, to any depth – every position passed to an objective,
every recorded position, the current positions and the personal bests are inside the bounds
(compare C21). -/
theorem C101_bounds (_hn : n ≠ 1) (cfg : Config n d K) [IsStrictOrderedRing K] (b : Bounds d K)
    (hk : cfg.kind ≠ .binary) (hcb : cfg.bounds = some b) (hb : ProperBounds b)
    (hinit : cfg.initPos.isSome ∨ cfg.center = fun _ => 1) (r1 r2 : InitDraw n d K)
    (hr2 : r2.Legal) (s0 : Opt n d K) (hc : construct cfg r1 r2 = .ok s0) (p : Script n d K)
    (hp : p.Legal) :
    let σ := (p.run cfg { opt := s0 }).1
    (∀ x ∈ σ.asked, InBox b x) ∧ InBox b σ.opt.swarm.position ∧ InBox b σ.opt.swarm.pbestPos ∧
      ∀ x ∈ σ.opt.posHistory, InBox b x := by
  have := Script.run_new (cfg := cfg)
    (I := fun σ => AllInside b σ.opt ∧ ∀ x ∈ σ.asked, InBox b x)
    (J := fun σ => BoxInv b σ.opt ∧ ∀ x ∈ σ.asked, InBox b x) (P := InBox b) hr2 hc
    (fun σ h => ⟨h.1.1, h.2⟩) ?_ ?_ (fun σ h => h.2) ?_ ?_ ?_ ?_ hp
  · exact ⟨this.2, this.1.position, this.1.pbest, this.1.history⟩
  · intro r sw t a b' p A hr hsw hA
    have := allInside_fresh hk hcb hb r hr hinit sw hsw
    exact ⟨⟨this.1, this.2, by simp, by simp⟩, hA⟩
  · intro σ r sw hr hsw hJ
    have := allInside_fresh hk hcb hb r hr hinit sw hsw
    exact ⟨⟨⟨this.1, this.2, by simp, by simp⟩, hJ.1.2⟩, hJ.2⟩
  · intro σ h
    refine ⟨⟨h.1, fun x hx => ?_⟩, h.1.1.position⟩
    simp only [List.mem_append, List.mem_singleton] at hx
    rcases hx with hx | rfl
    · exact h.2 x hx
    · exact h.1.1.position
  · intro σ h
    exact ⟨boxInv_start hk none σ.opt h.1, h.2⟩
  · intro r σ x c iters i q hr h _ _
    exact ⟨boxInv_iterate hk hcb hb _ hr iters i q σ.opt h.1, h.2⟩
  · rintro σ c ⟨⟨⟨h1, h2, h3, h4⟩, h5⟩, h6⟩
    exact ⟨⟨⟨h1, h2, h3, h4⟩, h5⟩, h6⟩

/-- C101 (clamp): and every velocity, recorded or current, is inside the clamp (compare C22). -/
theorem C101_clamp (_hn : n ≠ 1) (cfg : Config n d K) [IsStrictOrderedRing K] (c : Clamp d K)
    (hcc : cfg.clamp = some c) (hcl : ∀ j, c.1 j ≤ c.2 j) (hst : cfg.vhStrategy ≠ "zero")
    (r1 r2 : InitDraw n d K) (hr2 : r2.Legal) (s0 : Opt n d K)
    (hc : construct cfg r1 r2 = .ok s0) (p : Script n d K) (hp : p.Legal) :
    let σ := (p.run cfg { opt := s0 }).1
    (∀ i j, c.1 j ≤ σ.opt.swarm.velocity i j ∧ σ.opt.swarm.velocity i j ≤ c.2 j) ∧
      ∀ v ∈ σ.opt.velocityHistory, ∀ i j, c.1 j ≤ v i j ∧ v i j ≤ c.2 j := by
  have := Script.run_new (cfg := cfg)
    (I := fun σ => ClampInv c σ.opt)
    (J := fun σ => ClampInv c σ.opt ∧ σ.opt.vhMem.isSome) (P := fun _ => True) hr2 hc
    (fun σ h => h.1) ?_ ?_ (fun _ _ _ _ => trivial) ?_ ?_ ?_ ?_ hp
  · exact ⟨this.velocity, this.history⟩
  · intro r sw t a b' p A hr hsw hA
    exact ⟨clampInv_fresh hcc hcl r hr sw hsw, by simp⟩
  · intro σ r sw hr hsw hJ
    exact ⟨⟨clampInv_fresh hcc hcl r hr sw hsw, by simp⟩, hJ.2⟩
  · intro σ h; exact ⟨h, trivial⟩
  · rintro σ ⟨h1, h2⟩; exact ⟨⟨h1, h2⟩, rfl⟩
  · intro r σ x c' iters i q hr h _ _
    exact clampInv_iterate hcc hcl hst _ r iters i q σ.opt h
  · rintro σ c' ⟨⟨h1, h2⟩, h3⟩; exact ⟨⟨h1, h2⟩, h3⟩

/-- C101 (personal best costs): every personal best cost is `+inf` or a cost that some evaluation
since the last reset returned for this particle; it is never `nan`. -/
theorem C101_personal_costs (_hn : n ≠ 1) (cfg : Config n d K) (r1 r2 : InitDraw n d K)
    (hr2 : r2.Legal) (s0 : Opt n d K) (hc : construct cfg r1 r2 = .ok s0) (p : Script n d K)
    (hp : p.Legal) (i : Fin n) :
    let σ := (p.run cfg { opt := s0 }).1
    σ.opt.swarm.pbestCost i ≠ XR.nan ∧
      (σ.opt.swarm.pbestCost i = XR.pinf ∨ ∃ e ∈ σ.heard, e.2 i = σ.opt.swarm.pbestCost i) := by
  refine Script.run_new (cfg := cfg)
    (I := fun σ => σ.opt.swarm.pbestCost i ≠ XR.nan ∧
      (σ.opt.swarm.pbestCost i = XR.pinf ∨ ∃ e ∈ σ.heard, e.2 i = σ.opt.swarm.pbestCost i))
    (J := fun σ => σ.opt.swarm.pbestCost i ≠ XR.nan ∧
      (σ.opt.swarm.pbestCost i = XR.pinf ∨ ∃ e ∈ σ.heard, e.2 i = σ.opt.swarm.pbestCost i))
    (P := fun _ => True) hr2 hc (fun _ h => h) ?_ ?_ (fun _ _ _ _ => trivial)
    (fun σ h => ⟨h, trivial⟩) ?_ ?_ (fun σ c h => h) hp
  · intro r sw t a b p A _ hsw _
    have := (fresh_reachable_init cfg r sw hsw).1
    dsimp only
    rw [this]
    exact ⟨by simp, Or.inl rfl⟩
  · intro σ r sw _ hsw _
    have := (fresh_reachable_init cfg r sw hsw).1
    dsimp only
    rw [this]
    exact ⟨by simp, Or.inl rfl⟩
  · intro σ h
    exact ⟨by simp [prepare], Or.inl rfl⟩
  · intro r σ x c iters k q _ h _ _
    dsimp only
    rw [(iterate_recorded cfg c r iters k q σ.opt).1, recordEval_pbestCost]
    by_cases hl : XR.lt (c i) (σ.opt.swarm.pbestCost i) = true
    · rw [if_pos hl]
      exact ⟨XR.left_ne_nan hl, Or.inr ⟨_, List.mem_append_right _ (List.mem_singleton_self _), rfl⟩⟩
    · rw [if_neg hl]
      refine ⟨h.1, ?_⟩
      rcases h.2 with h | ⟨e, he, h⟩
      · exact Or.inl h
      · exact Or.inr ⟨e, List.mem_append_left _ he, h⟩

/-- What `StarInv` says, in terms of the answers of the evaluations. -/
def Live.StarLog (σ : Live n d K) : Prop :=
  StarInv σ.opt ∧ σ.heard.map Prod.snd = σ.opt.evals.map Prod.snd

theorem Live.starLog_run (hn : 2 ≤ n) (cfg : Config n d K) (hk : cfg.kind.isStar)
    (r1 r2 : InitDraw n d K) (hr2 : r2.Legal) (s0 : Opt n d K)
    (hc : construct cfg r1 r2 = .ok s0) (p : Script n d K) (hp : p.Legal) :
    (p.run cfg { opt := s0 }).1.StarLog := by
  refine Script.run_new (cfg := cfg) (I := Live.StarLog) (J := Live.StarLog)
    (P := fun _ => True) hr2 hc (fun _ h => h) ?_ ?_ (fun _ _ _ _ => trivial)
    (fun σ h => ⟨h, trivial⟩) ?_ ?_ (fun σ c h => ⟨starInv_congr h.1 rfl rfl rfl rfl, h.2⟩) hp
  · intro r sw t a b p A _ hsw _
    have := fresh_reachable_init cfg r sw hsw
    exact ⟨starInv_init (r := r) t a b p ⟨this.1, this.2.1⟩, rfl⟩
  · intro σ r sw _ hsw _
    have := fresh_reachable_init cfg r sw hsw
    exact ⟨starInv_init (r := r) _ _ _ _ ⟨this.1, this.2.1⟩, rfl⟩
  · intro σ h
    exact ⟨starInv_congr (starInv_prep h.1) rfl rfl rfl rfl, h.2⟩
  · intro r σ x c iters k q _ h _ _
    refine ⟨starInv_iterate (by omega) cfg hk _ r iters k q σ.opt h.1, ?_⟩
    dsimp only
    rw [(iterate_recorded cfg c r iters k q σ.opt).2, List.map_append, List.map_append, h.2]
    rfl

/-- C101 (best cost of a Star optimizer): whatever a program and its objectives do with the
optimizer, `best_cost` is the smallest cost returned by an evaluation since the last reset, at
whatever depth it was made, and `cost_history` is the running minimum of these costs, in the order in
which the evaluations ended (compare C04). -/
theorem C101_star (hn : 2 ≤ n) (cfg : Config n d K) (hk : cfg.kind.isStar)
    (r1 r2 : InitDraw n d K) (hr2 : r2.Legal) (s0 : Opt n d K)
    (hc : construct cfg r1 r2 = .ok s0) (p : Script n d K) (hp : p.Legal) :
    let σ := (p.run cfg { opt := s0 }).1
    IsMinOf σ.opt.swarm.bestCostVal (allCosts σ.heard) ∧
      σ.opt.costHistory.length = σ.heard.length ∧
      ∀ (t : Nat) (h : t < σ.opt.costHistory.length),
        IsMinOf σ.opt.costHistory[t] (allCosts (σ.heard.take (t + 1))) := by
  obtain ⟨h, hl⟩ := Live.starLog_run hn cfg hk r1 r2 hr2 s0 hc p hp
  dsimp only
  refine ⟨by rw [allCosts_of_costs hl]; exact h.best, ?_, fun t ht => ?_⟩
  · rw [h.len, ← List.length_map (f := Prod.snd), ← hl, List.length_map]
  · rw [allCosts_of_costs (F := ((p.run cfg { opt := s0 }).1.opt.evals.take (t + 1)))
      (by rw [List.map_take, List.map_take, hl])]
    exact h.hist t ht

/-- C101 (histories): the five history lists always have the same length (compare C28). -/
theorem C101_histories (_hn : n ≠ 1) (cfg : Config n d K) (r1 r2 : InitDraw n d K)
    (hr2 : r2.Legal) (s0 : Opt n d K) (hc : construct cfg r1 r2 = .ok s0) (p : Script n d K)
    (hp : p.Legal) :
    let s := (p.run cfg { opt := s0 }).1.opt
    s.meanPbestHistory.length = s.costHistory.length ∧
      s.meanNeighborHistory.length = s.costHistory.length ∧
      s.posHistory.length = s.costHistory.length ∧
      s.velocityHistory.length = s.costHistory.length := by
  let L : Opt n d K → Prop := fun s => s.meanPbestHistory.length = s.costHistory.length ∧
      s.meanNeighborHistory.length = s.costHistory.length ∧
      s.posHistory.length = s.costHistory.length ∧
      s.velocityHistory.length = s.costHistory.length
  refine Script.run_new (cfg := cfg) (I := fun σ => L σ.opt) (J := fun σ => L σ.opt)
    (P := fun _ => True) hr2 hc (fun _ h => h) ?_ ?_ (fun _ _ _ _ => trivial)
    (fun σ h => ⟨h, trivial⟩) (fun σ h => h) ?_ (fun σ c h => h) hp
  · intro r sw t a b p A _ hsw _; exact ⟨rfl, rfl, rfl, rfl⟩
  · intro σ r sw _ hsw _; exact ⟨rfl, rfl, rfl, rfl⟩
  · intro r σ x c iters k q _ h _ _
    refine iterate_inv cfg _ r iters k q L (fun s c h _ => h) (fun s t h => h) ?_ ?_ σ.opt h
    · rintro s t g ⟨h1, h2, h3, h4⟩
      simp [L, recordBest, Opt.populateHistory, h1, h2, h3, h4]
    · rintro s ⟨h1, h2, h3, h4⟩
      obtain ⟨_, _, _, _, _, _, e1, e2, e3, e4, e5, _⟩ := moveSwarm_frame cfg r iters k s
      simp only [L, e1, e2, e3, e4, e5]
      exact ⟨h1, h2, h3, h4⟩

/-! ## What optimizing again from inside an evaluation breaks -/

namespace Ex

/-- The objective `x`, for one dimension. -/
def slope (x : Mat 2 1 ℚ) : Costs 2 ℚ := fun i => .fin (x i 0)

/-- The same objective, which only computes. -/
def plainSlope : Nat → Mat 2 1 ℚ → Script 2 1 ℚ := fun _ x => .ret (.ok (slope x))

/-- An objective that calls `optimize` twice on the optimizer it is evaluated for, and then returns
the cost of the positions it was given. -/
def eagerSlope : Nat → Mat 2 1 ℚ → Script 2 1 ℚ := fun _ x =>
  .optimize plainSlope 1 (fun _ => draw 2 1) fun _ =>
  .optimize plainSlope 1 (fun _ => draw 2 1) fun _ => .ret (.ok (slope x))

/-- An objective that resets the optimizer when the best cost is still above -1 (which it can see)
and otherwise just computes. -/
def restarting : Nat → Mat 2 1 ℚ → Script 2 1 ℚ := fun _ x =>
  .look fun s => if XR.lt (.fin (-1)) s.swarm.bestCostVal then
    .reset (init 2 1) fun _ => .ret (.ok (slope x)) else .ret (.ok (slope x))

/-- An objective that returns the number of history entries it sees. -/
def tallying : Nat → Mat 2 1 ℚ → Script 2 1 ℚ := fun _ _ =>
  .look fun s => .ret (.ok fun _ => .fin (- (s.costHistory.length : ℚ)))

/-- A new optimizer. -/
def newLive : Live 2 1 ℚ :=
  match construct (gcfg 2 1) (init 2 1) (init 2 1) with
  | .ok s => { opt := s }
  | .error _ => { opt := { swarm := mkSwarm (fun _ _ => 0) (fun _ _ => 0) [] } }

/-- A call of `optimize` of a new optimizer. -/
def liveRun (obj : Nat → Mat 2 1 ℚ → Script 2 1 ℚ) (iters : Nat) :
    Live 2 1 ℚ × Except Err (XR ℚ × Vec 1 ℚ) :=
  newLive.optimize (gcfg 2 1) (fun i x => (obj i x).run (gcfg 2 1)) iters fun _ => draw 2 1

end Ex

/-- C101 (the pair can be torn): an objective that calls `optimize` on the optimizer it is evaluated
for makes the outer call pair its costs with positions that have moved on: the returned cost 0 was
never the cost of the returned position, although every evaluation, inner and outer, returned
exactly the cost of the positions it was given. -/
theorem C101_torn : ∃ σ c x, Ex.liveRun Ex.eagerSlope 1 = (σ, .ok (c, x)) ∧
    (∀ e ∈ σ.heard, e.2 = Ex.slope e.1) ∧ σ.heard.length = 3 ∧
    ¬ ∃ e ∈ σ.heard, ∃ i, e.1 i = x ∧ e.2 i = c := by
  have key : (match Ex.liveRun Ex.eagerSlope 1 with
    | (σ, .ok (c, x)) => decide ((∀ e ∈ σ.heard, e.2 = Ex.slope e.1) ∧ σ.heard.length = 3 ∧
        ∀ e ∈ σ.heard, ∀ i, e.1 i = x → e.2 i ≠ c)
    | _ => false) = true := by decide +kernel
  cases h : Ex.liveRun Ex.eagerSlope 1 with
  | mk σ f =>
  rw [h] at key
  cases f with
  | error e => cases key
  | ok v =>
    obtain ⟨c, x⟩ := v
    obtain ⟨h1, h2, h3⟩ := of_decide_eq_true key
    exact ⟨σ, c, x, rfl, h1, h2, fun ⟨e, he, i, hx, hc⟩ => h3 e he i hx hc⟩

/-! ## The hypotheses can be met -/

-- C101_reads: an objective that looks, and whose costs depend on what it sees.
example : (∀ i x, (Ex.tallying i x).Reads) ∧ (match Ex.liveRun Ex.tallying 3 with
    | (σ, .ok (c, _)) => decide (c = .fin (-2) ∧ σ.opt.costHistory = [.fin 0, .fin (-1), .fin (-2)])
    | _ => false) = true :=
  ⟨fun _ _ => .look _ fun _ => .ret _, by decide +kernel⟩

-- C101_reset: an objective that resets the optimizer; the call raises `ValueError`.
example : (∀ x, (Script.EndsInReset (.look fun _ => .reset (Ex.init 2 1) fun _ =>
      .ret (.ok (Ex.slope x)))) ) ∧
    (match Ex.liveRun (fun _ x => .look fun _ => .reset (Ex.init 2 1) fun _ =>
        .ret (.ok (Ex.slope x))) 3 with
    | (σ, .error .valueError) => decide (σ.opt.costHistory = [] ∧ σ.asked.length = 1)
    | _ => false) = true :=
  ⟨fun x => .look _ fun _ => .last _ _ fun _ => .ret _, by decide +kernel⟩

example : (match Ex.liveRun Ex.restarting 3 with
    | (_, .error .valueError) => true
    | _ => false) = true := by decide +kernel

-- The other theorems: a program whose objective optimizes again, twice, inside its evaluations.
example : Script.Legal (.optimize Ex.eagerSlope 2 (fun _ => Ex.draw 2 1) fun _ =>
      .reset (Ex.init 2 1) fun _ => .optimize Ex.eagerSlope 1 (fun _ => Ex.draw 2 1) fun _ =>
        .ret (.error .typeError)) := by
  have hi : (Ex.init 2 1).Legal := by unfold InitDraw.Legal Unit01; decide +kernel
  have hplain : ∀ i x, (Ex.plainSlope i x).Legal := fun _ _ => .ret _
  have heager : ∀ i x, (Ex.eagerSlope i x).Legal := fun _ _ =>
    .optimize _ _ _ _ hplain (fun _ => Ex.draw_legal 2 1) fun _ =>
    .optimize _ _ _ _ hplain (fun _ => Ex.draw_legal 2 1) fun _ => .ret _
  exact .optimize _ _ _ _ heager (fun _ => Ex.draw_legal 2 1) fun _ => .reset _ _ hi fun _ =>
    .optimize _ _ _ _ heager (fun _ => Ex.draw_legal 2 1) fun _ => .ret _

example : (match Ex.liveRun Ex.eagerSlope 2 with
    | (σ, .ok _) => decide (σ.asked.length = 6 ∧ σ.opt.costHistory.length = 6)
    | _ => false) = true := by decide +kernel

end PySwarms
