import Verif.Model.Reentrant
import Verif.Lemmas.Runs
import Verif.Lemmas.Star

/-! Lemmas about objectives that use the optimizer. -/

set_option linter.unusedSectionVars false

namespace PySwarms

variable {n d : Nat} {K : Type}

/-- The script never calls a method of the optimizer: it only looks and returns. -/
inductive Script.Reads : Script n d K → Prop
  | ret (c) : Reads (.ret c)
  | look (k) : (∀ s, Reads (k s)) → Reads (.look k)

/-- What a script that only looks returns when it is run with the optimizer in state `s`. -/
def Script.answer : Script n d K → Opt n d K → Except Err (Costs n K)
  | .ret c, _ => c
  | .look k, s => (k s).answer s
  | _, _ => .error .unmodelled

/-- The last method of the optimizer that the script calls, whatever it sees, is `reset()`. -/
inductive Script.EndsInReset : Script n d K → Prop
  | last (r) (k) : (∀ o, Script.Reads (k o)) → EndsInReset (.reset r k)
  | look (k) : (∀ s, EndsInReset (k s)) → EndsInReset (.look k)
  | reset (r) (k) : (∀ o, EndsInReset (k o)) → EndsInReset (.reset r k)
  | optimize (obj) (iters) (env) (k) : (∀ o, EndsInReset (k o)) →
      EndsInReset (.optimize obj iters env k)

/-- All random numbers used by the calls in the script, at any depth, satisfy the given
predicates. -/
inductive Script.Draws (LR : InitDraw n d K → Prop) (LD : Draw n d K → Prop) : Script n d K → Prop
  | ret (c) : Draws LR LD (.ret c)
  | look (k) : (∀ s, Draws LR LD (k s)) → Draws LR LD (.look k)
  | reset (r) (k) : LR r → (∀ o, Draws LR LD (k o)) → Draws LR LD (.reset r k)
  | optimize (obj) (iters) (env) (k) : (∀ i x, Draws LR LD (obj i x)) → (∀ i, LD (env i)) →
      (∀ o, Draws LR LD (k o)) → Draws LR LD (.optimize obj iters env k)

variable [Field K] [LinearOrder K] [Transc K] [FloorRing K]

theorem Script.Reads.run_eq {cfg : Config n d K} {p : Script n d K} (hp : p.Reads)
    (σ : Live n d K) : p.run cfg σ = (σ, p.answer σ.opt) := by
  induction hp with
  | ret c => rfl
  | look k _ ih => rw [Script.run, ih]; rfl

theorem Live.iterate_inv {cfg : Config n d K}
    {obj : Mat n d K → Live n d K → Live n d K × Except Err (Costs n K)} {r : Draw n d K}
    {J : Live n d K → Prop} {P : Mat n d K → Prop}
    (hask : ∀ σ, J σ → J { σ with asked := σ.asked ++ [σ.opt.swarm.position] } ∧
      P σ.opt.swarm.position)
    (hrec : ∀ σ x c iters i q, J σ → σ.primed = true → P x →
      J { σ with opt := (PySwarms.iterate cfg (fun _ => .ok c) r iters i q σ.opt).1,
                 heard := σ.heard ++ [(x, c)] })
    (hcur : ∀ σ c, J σ →
      J { σ with opt := { σ.opt with swarm := { σ.opt.swarm with currentCost := c } } })
    (hobj : ∀ x σ, J σ → J (obj x σ).1) (iters i : Nat) (q : List Bool) (σ : Live n d K)
    (h : J σ) : J (Live.iterate cfg obj r iters i q σ).1 := by
  obtain ⟨h0, hP⟩ := hask σ h
  have h1 := hobj σ.opt.swarm.position _ h0
  unfold Live.iterate
  dsimp only
  generalize obj σ.opt.swarm.position { σ with asked := σ.asked ++ [σ.opt.swarm.position] } = o
    at h1 ⊢
  obtain ⟨σ1, e | c⟩ := o
  · exact h1
  · dsimp only
    by_cases hp : σ1.primed = true
    · rw [if_pos hp]; exact hrec σ1 _ c iters i q h1 hp hP
    · rw [if_neg hp]; exact hcur σ1 c h1

theorem Live.loop_inv {cfg : Config n d K}
    {obj : Nat → Mat n d K → Live n d K → Live n d K × Except Err (Costs n K)}
    {env : Nat → Draw n d K} {iters : Nat} {J : Live n d K → Prop}
    (h : ∀ i q σ, J σ → J (Live.iterate cfg (obj i) (env i) iters i q σ).1) (m i : Nat)
    (q : List Bool) (σ : Live n d K) (hs : J σ) : J (Live.loop cfg obj env iters m i q σ).1 := by
  induction m generalizing i q σ with
  | zero => exact hs
  | succ m ih =>
    have h1 := h i q σ hs
    rw [Live.loop]
    generalize Live.iterate cfg (obj i) (env i) iters i q σ = o at h1 ⊢
    obtain ⟨σ', e | f⟩ := o
    · exact h1
    · cases f with
      | stop => exact h1
      | «continue» q' => exact ih _ _ _ h1

theorem Live.optimize_inv {cfg : Config n d K}
    {obj : Nat → Mat n d K → Live n d K → Live n d K × Except Err (Costs n K)}
    {env : Nat → Draw n d K} {J : Live n d K → Prop} (iters : Nat)
    (h : ∀ i q σ, J σ → J (Live.iterate cfg (obj i) (env i) iters i q σ).1) (σ : Live n d K)
    (hs : J { σ with opt := prepare cfg σ.opt, primed := true }) :
    J (σ.optimize cfg obj iters env).1 := by
  have h1 := Live.loop_inv (cfg := cfg) (obj := obj) (env := env) h iters 0 [] _ hs
  unfold Live.optimize
  generalize Live.loop cfg obj env iters iters 0 [] _ = o at h1 ⊢
  obtain ⟨σ', e | u⟩ := o <;> exact h1

/-- Invariants of everything a program and the objectives it passes can do: `I` between the calls
and `J` during a call of `optimize`. -/
theorem Script.run_inv {cfg : Config n d K} {LR : InitDraw n d K → Prop} {LD : Draw n d K → Prop}
    {I J : Live n d K → Prop} {P : Mat n d K → Prop} (hJI : ∀ σ, J σ → I σ)
    (hask : ∀ σ, J σ → J { σ with asked := σ.asked ++ [σ.opt.swarm.position] } ∧
      P σ.opt.swarm.position)
    (hresetI : ∀ r σ, LR r → I σ → I (σ.reset cfg r).1)
    (hresetJ : ∀ r σ, LR r → J σ → J (σ.reset cfg r).1)
    (hstart : ∀ σ, I σ → J { σ with opt := prepare cfg σ.opt, primed := true })
    (hrec : ∀ r σ x c iters i q, LD r → J σ → σ.primed = true → P x →
      J { σ with opt := (PySwarms.iterate cfg (fun _ => .ok c) r iters i q σ.opt).1,
                 heard := σ.heard ++ [(x, c)] })
    (hcur : ∀ σ c, J σ →
      J { σ with opt := { σ.opt with swarm := { σ.opt.swarm with currentCost := c } } })
    {p : Script n d K} (hp : p.Draws LR LD) (σ : Live n d K) :
    (I σ → I (p.run cfg σ).1) ∧ (J σ → J (p.run cfg σ).1) := by
  induction hp generalizing σ with
  | ret c => exact ⟨id, id⟩
  | look k _ ih => rw [Script.run]; exact ih _ σ
  | reset r k hr _ ih =>
    rw [Script.run]
    exact ⟨fun h => (ih _ _).1 (hresetI r σ hr h), fun h => (ih _ _).2 (hresetJ r σ hr h)⟩
  | optimize obj iters env k _ henv _ ihobj ih =>
    rw [Script.run]
    have hopt : I σ → J (σ.optimize cfg (fun i x => (obj i x).run cfg) iters env).1 := by
      intro h
      refine Live.optimize_inv iters (fun i q τ hτ => ?_) σ (hstart σ h)
      exact Live.iterate_inv (J := J) (P := P) hask
        (fun τ x c iters i q => hrec (env _) τ x c iters i q (henv _)) hcur
        (fun x τ h => (ihobj _ x τ).2 h) iters i q τ hτ
    exact ⟨fun h => (ih _ _).1 (hJI _ (hopt h)), fun h => (ih _ _).2 (hopt (hJI _ h))⟩

/-! ### Objectives that only look -/

theorem iterate_answers {cfg : Config n d K} {ev ev' : Mat n d K → Except Err (Costs n K)}
    {s : Opt n d K} (h : ev s.swarm.position = ev' s.swarm.position) (r : Draw n d K)
    (iters i : Nat) (q : List Bool) :
    iterate cfg ev r iters i q s = iterate cfg ev' r iters i q s := by
  unfold iterate; rw [h]

theorem iterate_raises {cfg : Config n d K} {ev : Mat n d K → Except Err (Costs n K)}
    {s : Opt n d K} {e : Err} (h : ev s.swarm.position = .error e) (r : Draw n d K)
    (iters i : Nat) (q : List Bool) : iterate cfg ev r iters i q s = (s, .error e) := by
  unfold iterate; rw [h]

theorem iterate_moved {cfg : Config n d K} {c : Costs n K} {r : Draw n d K} {iters i : Nat}
    {q q' : List Bool} {s s' : Opt n d K}
    (h : iterate cfg (fun _ => .ok c) r iters i q s = (s', .ok (.continue q'))) :
    s'.posHistory = s.posHistory ++ [s.swarm.position] ∧
      s'.costHistory = s.costHistory ++ [s'.swarm.bestCostVal] ∧ s'.swarm.currentCost = c := by
  have hc := iterate_cases cfg (fun _ => .ok c) r iters i q s
  rw [h] at hc
  dsimp only at hc
  cases hc with
  | moved c' t g _ h' hg hns hm =>
    cases h'
    have hf := moveSwarm_frame cfg r iters i (recordBest t g (recordEval c s))
    rw [hm] at hf
    obtain ⟨_, _, _, h4, h5, _, h7, _, _, h10, _, _, _⟩ := hf
    dsimp only at h4 h5 h7 h10
    refine ⟨h10, ?_, h5⟩
    rw [h7]
    unfold Swarm.bestCostVal
    rw [h4]
    rfl

theorem iterate_costHistory_prefix (cfg : Config n d K) (ev : Mat n d K → Except Err (Costs n K))
    (r : Draw n d K) (iters i : Nat) (q : List Bool) (s : Opt n d K) :
    s.costHistory <+: (iterate cfg ev r iters i q s).1.costHistory := by
  have hc := iterate_cases cfg ev r iters i q s
  generalize (iterate cfg ev r iters i q s).1 = s' at hc ⊢
  generalize (iterate cfg ev r iters i q s).2 = o at hc
  have key : ∀ t g c, s.costHistory <+: (recordBest t g (recordEval c s)).costHistory :=
    fun t g c => List.prefix_append _ _
  cases hc with
  | evalError e h => exact List.prefix_rfl
  | gbestError c t e h hg => exact List.prefix_rfl
  | stop c t g h hg hi hq => exact key t g c
  | moveError c t g _ e h hg hns hm =>
    have hf := (moveSwarm_frame cfg r iters i (recordBest t g (recordEval c s))).2.2.2.2.2.2.1
    rw [hm] at hf; rw [hf]; exact key t g c
  | moved c t g _ h hg hns hm =>
    have hf := (moveSwarm_frame cfg r iters i (recordBest t g (recordEval c s))).2.2.2.2.2.2.1
    rw [hm] at hf; rw [hf]; exact key t g c

theorem loop_costHistory_prefix (cfg : Config n d K) (ev : Nat → Mat n d K → Except Err (Costs n K))
    (env : Nat → Draw n d K) (iters m i : Nat) (q : List Bool) (s : Opt n d K) :
    s.costHistory <+: (loop cfg ev env iters m i q s).1.costHistory := by
  refine loop_inv cfg ev env iters (fun s' => s.costHistory <+: s'.costHistory) ?_ m i q s
    List.prefix_rfl
  intro i q s' h
  exact h.trans (iterate_costHistory_prefix cfg (ev i) (env i) iters i q s')

/-- An iteration with an objective that only looks is an ordinary iteration. -/
theorem Live.iterate_reads {cfg : Config n d K} {obj : Mat n d K → Script n d K}
    (hobj : ∀ x, (obj x).Reads) (r : Draw n d K) (iters i : Nat) (q : List Bool) (σ : Live n d K)
    (hp : σ.primed = true) :
    ∃ l, Live.iterate cfg (fun x => (obj x).run cfg) r iters i q σ =
      ({ opt := (PySwarms.iterate cfg (fun x => (obj x).answer σ.opt) r iters i q σ.opt).1
         primed := true
         asked := σ.asked ++ [σ.opt.swarm.position]
         heard := l },
       (PySwarms.iterate cfg (fun x => (obj x).answer σ.opt) r iters i q σ.opt).2) ∧
      (∀ c, (obj σ.opt.swarm.position).answer σ.opt = .ok c →
        l = σ.heard ++ [(σ.opt.swarm.position, c)]) := by
  unfold Live.iterate
  dsimp only
  rw [(hobj _).run_eq]
  dsimp only
  cases ha : (obj σ.opt.swarm.position).answer σ.opt with
  | error e =>
    refine ⟨σ.heard, ?_, fun c h => by cases h⟩
    rw [iterate_raises (ev := fun x => (obj x).answer σ.opt) ha, ← hp]
  | ok c =>
    refine ⟨σ.heard ++ [(σ.opt.swarm.position, c)], ?_, fun c' h => by cases h; rfl⟩
    rw [iterate_answers (ev := fun x => (obj x).answer σ.opt) (ev' := fun _ => .ok c) ha]
    simp only [hp, if_true]

/-- The loop with an objective that only looks is an ordinary loop. -/
theorem Live.loop_reads {cfg : Config n d K} {obj : Nat → Mat n d K → Script n d K}
    (hobj : ∀ i x, (obj i x).Reads) (env : Nat → Draw n d K) (iters m i : Nat) (q : List Bool)
    (σ : Live n d K) (hp : σ.primed = true) :
    ∃ (see : Nat → Opt n d K) (A : List (Mat n d K)),
      ∀ ev : Nat → Mat n d K → Except Err (Costs n K),
        (∀ j, i ≤ j → ∀ x, ev j x = (obj j x).answer (see j)) →
        let o := PySwarms.loop cfg ev env iters m i q σ.opt
        let l := Live.loop cfg (fun i x => (obj i x).run cfg) env iters m i q σ
        l.1.opt = o.1 ∧ l.2 = o.2 ∧ l.1.asked = σ.asked ++ A ∧ A.length ≤ m ∧
          (0 < A.length → see i = σ.opt) ∧
          ∀ (j : Nat) (hj : j < A.length),
            (see (i + j)).swarm.position = A[j] ∧
            (see (i + j)).posHistory = σ.opt.posHistory ++ A.take j ∧
            (see (i + j)).costHistory.length = σ.opt.costHistory.length + j ∧
            (see (i + j)).costHistory <+: o.1.costHistory ∧
            ∀ k, j = k + 1 →
              ev (i + k) (see (i + k)).swarm.position = .ok (see (i + j)).swarm.currentCost ∧
              (see (i + j)).costHistory.getLast? = some (see (i + j)).swarm.bestCostVal := by
  induction m generalizing i q σ with
  | zero =>
    refine ⟨fun _ => σ.opt, [], fun ev _ => ?_⟩
    refine ⟨rfl, rfl, (List.append_nil _).symm, le_refl _, fun h => absurd h (by simp), ?_⟩
    intro j hj; simp at hj
  | succ m ih =>
    obtain ⟨l, hl, hl2⟩ := Live.iterate_reads (cfg := cfg) (hobj i) (env i) iters i q σ hp
    -- how the first iteration ends does not depend on the rest
    cases ho : PySwarms.iterate cfg (fun x => (obj i x).answer σ.opt) (env i) iters i q σ.opt with
    | mk s' f =>
    rw [ho] at hl
    have hfirst : ∀ ev : Nat → Mat n d K → Except Err (Costs n K),
        (∀ x, ev i x = (obj i x).answer σ.opt) →
        PySwarms.iterate cfg (ev i) (env i) iters i q σ.opt = (s', f) := by
      intro ev hev
      rw [← ho, show ev i = fun x => (obj i x).answer σ.opt from funext hev]
    have hstop : (∀ q', f ≠ .ok (.continue q')) →
        ∃ (see : Nat → Opt n d K) (A : List (Mat n d K)),
        ∀ ev : Nat → Mat n d K → Except Err (Costs n K),
        (∀ j, i ≤ j → ∀ x, ev j x = (obj j x).answer (see j)) →
        let o := PySwarms.loop cfg ev env iters (m + 1) i q σ.opt
        let l := Live.loop cfg (fun i x => (obj i x).run cfg) env iters (m + 1) i q σ
        l.1.opt = o.1 ∧ l.2 = o.2 ∧ l.1.asked = σ.asked ++ A ∧ A.length ≤ m + 1 ∧
          (0 < A.length → see i = σ.opt) ∧
          ∀ (j : Nat) (hj : j < A.length),
            (see (i + j)).swarm.position = A[j] ∧
            (see (i + j)).posHistory = σ.opt.posHistory ++ A.take j ∧
            (see (i + j)).costHistory.length = σ.opt.costHistory.length + j ∧
            (see (i + j)).costHistory <+: o.1.costHistory ∧
            ∀ k, j = k + 1 →
              ev (i + k) (see (i + k)).swarm.position = .ok (see (i + j)).swarm.currentCost ∧
              (see (i + j)).costHistory.getLast? = some (see (i + j)).swarm.bestCostVal := by
      intro hf
      refine ⟨fun _ => σ.opt, [σ.opt.swarm.position], fun ev hev => ?_⟩
      have h1 := hfirst ev (hev i (le_refl _))
      have hpre := iterate_costHistory_prefix cfg (ev i) (env i) iters i q σ.opt
      rw [h1] at hpre
      dsimp only at hpre ⊢
      rw [PySwarms.loop, Live.loop, h1, hl]
      have hfacts : ∀ j, j < [σ.opt.swarm.position].length → j = 0 := by
        intro j hj; simp at hj; exact hj
      rcases f with e | f
      · refine ⟨rfl, rfl, rfl, by simp, fun _ => rfl, ?_⟩
        intro j hj
        obtain rfl := hfacts j hj
        exact ⟨rfl, by simp, rfl, hpre, fun k hk => by omega⟩
      · cases f with
        | stop =>
          refine ⟨rfl, rfl, rfl, by simp, fun _ => rfl, ?_⟩
          intro j hj
          obtain rfl := hfacts j hj
          exact ⟨rfl, by simp, rfl, hpre, fun k hk => by omega⟩
        | «continue» q' => exact absurd rfl (hf q')
    rcases f with e | f
    · exact hstop fun _ h => by cases h
    · cases f with
      | stop => exact hstop fun _ h => by cases h
      | «continue» q' =>
        clear hstop
        obtain ⟨see, A, hsee⟩ := ih (i + 1) q'
          ⟨s', true, σ.asked ++ [σ.opt.swarm.position], l⟩ rfl
        refine ⟨fun j => if j = i then σ.opt else see j, σ.opt.swarm.position :: A,
          fun ev hev => ?_⟩
        replace hev : ∀ j, i ≤ j → ∀ x,
          ev j x = (obj j x).answer (if j = i then σ.opt else see j) := hev
        have h1 := hfirst ev (fun x => by rw [hev i (le_refl _) x, if_pos rfl])
        obtain ⟨c, hcc⟩ : ∃ c, ev i σ.opt.swarm.position = .ok c := by
          cases hc : ev i σ.opt.swarm.position with
          | ok c => exact ⟨c, rfl⟩
          | error e => rw [iterate_raises hc] at h1; cases h1
        have h1' : PySwarms.iterate cfg (fun _ => .ok c) (env i) iters i q σ.opt =
            (s', .ok (.continue q')) := by
          rw [← h1]; exact iterate_answers hcc.symm _ _ _ _
        obtain ⟨hm1, hm2, hm3⟩ := iterate_moved h1'
        obtain ⟨k1, k2, k3, k4, k5, k6⟩ := hsee ev (fun j hj x => by
          rw [hev j (by omega) x, if_neg (by omega)])
        have hpre := loop_costHistory_prefix cfg ev env iters m (i + 1) q' s'
        dsimp only at k1 k2 k3 k4 k5 k6 ⊢
        rw [PySwarms.loop, Live.loop, h1, hl]
        dsimp only
        refine ⟨k1, k2, by rw [k3]; simp, by simp; exact k4, fun _ => if_pos rfl, ?_⟩
        intro j hj
        cases j with
        | zero =>
          simp only [Nat.add_zero, if_true, List.getElem_cons_zero, List.take_zero,
            List.append_nil, true_and]
          refine ⟨List.IsPrefix.trans ?_ hpre, fun k hk => by omega⟩
          rw [hm2]; exact List.prefix_append _ _
        | succ j =>
          have hj' : j < A.length := by simpa using hj
          obtain ⟨g1, g2, g3, g4, g5⟩ := k6 j hj'
          have e1 : i + (j + 1) = i + 1 + j := by omega
          rw [e1, if_neg (by omega)]
          refine ⟨by simpa using g1, by rw [g2, hm1]; simp, ?_, g4, ?_⟩
          · rw [g3, hm2]; simp; omega
          · rintro k hk
            obtain rfl : k = j := by omega
            cases k with
            | zero =>
              have hsee1 := k5 (by omega)
              simp only [Nat.add_zero] at g3 ⊢
              rw [if_pos trivial, hcc, hsee1, hm3, hm2]
              exact ⟨rfl, List.getLast?_concat ..⟩
            | succ k =>
              rw [if_neg (by omega)]
              have := g5 k rfl
              rw [show i + (k + 1) = i + 1 + k by omega]
              exact this

/-! ### Objectives that reset the optimizer -/

/-- The optimizer is as a completed `reset()` leaves it, except that `current_cost` may have been
assigned: a new swarm, no personal best costs, empty histories. -/
def Live.Renewed (cfg : Config n d K) (σ : Live n d K) : Prop :=
  σ.primed = false ∧ σ.heard = [] ∧ σ.opt.costHistory = [] ∧ σ.opt.meanPbestHistory = [] ∧
    σ.opt.meanNeighborHistory = [] ∧ σ.opt.posHistory = [] ∧ σ.opt.velocityHistory = [] ∧
    ∃ r sw c, resetSwarm cfg r = .ok sw ∧ σ.opt.swarm = { sw with currentCost := c }

theorem Live.reset_ok {cfg : Config n d K} {r : InitDraw n d K} {sw : Swarm n d K}
    (h : resetSwarm cfg r = .ok sw) (σ : Live n d K) :
    σ.reset cfg r = (⟨
        { swarm := sw, top := σ.opt.top, bhMem := σ.opt.bhMem, vhMem := σ.opt.vhMem
          openPools := σ.opt.openPools }, false, σ.asked, []⟩, .ok ()) := by
  unfold Live.reset PySwarms.reset
  rw [h]

theorem Live.renewed_reset {cfg : Config n d K} (hcfg : ∀ r, ∃ sw, resetSwarm cfg r = .ok sw)
    (r : InitDraw n d K) (σ : Live n d K) : Live.Renewed cfg (σ.reset cfg r).1 := by
  obtain ⟨sw, h⟩ := hcfg r
  rw [Live.reset_ok h]
  exact ⟨rfl, rfl, rfl, rfl, rfl, rfl, rfl, r, sw, sw.currentCost, h, rfl⟩

theorem Script.EndsInReset.renewed {cfg : Config n d K}
    (hcfg : ∀ r, ∃ sw, resetSwarm cfg r = .ok sw) {p : Script n d K} (hp : p.EndsInReset)
    (σ : Live n d K) : Live.Renewed cfg (p.run cfg σ).1 := by
  induction hp generalizing σ with
  | last r k hk => rw [Script.run, (hk _).run_eq]; exact Live.renewed_reset hcfg r σ
  | look k _ ih => rw [Script.run]; exact ih _ _
  | reset r k _ ih => rw [Script.run]; exact ih _ _
  | optimize obj iters env k _ ih => rw [Script.run]; exact ih _ _

theorem Live.iterate_reset {cfg : Config n d K} (hcfg : ∀ r, ∃ sw, resetSwarm cfg r = .ok sw)
    (hn : n ≠ 1) {obj : Mat n d K → Script n d K} (hobj : ∀ x, (obj x).EndsInReset)
    (r : Draw n d K) (iters i : Nat) (q : List Bool) (σ : Live n d K) :
    let o := Live.iterate cfg (fun x => (obj x).run cfg) r iters i q σ
    Live.Renewed cfg o.1 ∧ ∃ e, o.2 = .error e ∧
      (e = .valueError ∨ ∃ x τ, ((obj x).run cfg τ).2 = .error e) := by
  have h := (hobj σ.opt.swarm.position).renewed (cfg := cfg) hcfg
    { σ with asked := σ.asked ++ [σ.opt.swarm.position] }
  unfold Live.iterate
  dsimp only
  cases ho : (obj σ.opt.swarm.position).run cfg
    { σ with asked := σ.asked ++ [σ.opt.swarm.position] } with
  | mk σ1 f =>
  rw [ho] at h
  cases f with
  | error e => exact ⟨h, e, rfl, Or.inr ⟨_, _, by rw [ho]⟩⟩
  | ok c =>
    obtain ⟨h1, h2, h3, h4, h5, h6, h7, r, sw, c', h8, h9⟩ := h
    dsimp only at h1 h2 h3 h4 h5 h6 h7 h9 ⊢
    rw [if_neg (by rw [h1]; exact Bool.false_ne_true), if_neg hn]
    refine ⟨⟨h1, h2, h3, h4, h5, h6, h7, r, sw, c, h8, ?_⟩, _, rfl, Or.inl rfl⟩
    dsimp only
    rw [h9]

theorem Live.loop_reset {cfg : Config n d K} (hcfg : ∀ r, ∃ sw, resetSwarm cfg r = .ok sw)
    (hn : n ≠ 1) {obj : Nat → Mat n d K → Script n d K} {t : Nat}
    (hread : ∀ i, i < t → ∀ x, (obj i x).Reads) (hres : ∀ x, (obj t x).EndsInReset)
    (env : Nat → Draw n d K) (iters m i : Nat) (q : List Bool) (σ : Live n d K)
    (hp : σ.primed = true) (hi : i ≤ t) :
    let l := Live.loop cfg (fun i x => (obj i x).run cfg) env iters m i q σ
    (∃ A, l.1.asked = σ.asked ++ A ∧ A.length ≤ t - i) ∨
      Live.Renewed cfg l.1 ∧ ∃ e, l.2 = .error e ∧
        (e = .valueError ∨ ∃ x τ, ((obj t x).run cfg τ).2 = .error e) := by
  induction m generalizing i q σ with
  | zero => exact Or.inl ⟨[], (List.append_nil _).symm, Nat.zero_le _⟩
  | succ m ih =>
    rw [Live.loop]
    rcases Nat.lt_or_ge i t with hlt | hge
    · obtain ⟨l, hl, -⟩ := Live.iterate_reads (cfg := cfg) (hread i hlt) (env i) iters i q σ hp
      rw [hl]
      generalize PySwarms.iterate cfg (fun x => (obj i x).answer σ.opt) (env i) iters i q σ.opt = o
      obtain ⟨s', f⟩ := o
      have hstop : ∃ A, σ.asked ++ [σ.opt.swarm.position] = σ.asked ++ A ∧ A.length ≤ t - i :=
        ⟨_, rfl, by simp; omega⟩
      rcases f with e | f
      · exact Or.inl hstop
      · cases f with
        | stop => exact Or.inl hstop
        | «continue» q' =>
          rcases ih (i + 1) q' ⟨s', true, σ.asked ++ [σ.opt.swarm.position], l⟩ rfl hlt with
            ⟨A, h1, h2⟩ | h
          · exact Or.inl ⟨σ.opt.swarm.position :: A, by rw [h1]; simp, by simp; omega⟩
          · exact Or.inr h
    · obtain rfl : i = t := by omega
      right
      have h := Live.iterate_reset (cfg := cfg) hcfg hn hres (env i) iters i q σ
      dsimp only at h
      generalize Live.iterate cfg (fun x => (obj i x).run cfg) (env i) iters i q σ = o at h ⊢
      obtain ⟨σ', f⟩ := o
      obtain ⟨h1, e, h2, h3⟩ := h
      dsimp only at h1 h2
      subst h2
      exact ⟨h1, e, rfl, h3⟩

/-! ### What an iteration does to the personal best costs and the log -/

theorem iterate_recorded (cfg : Config n d K) (c : Costs n K) (r : Draw n d K) (iters i : Nat)
    (q : List Bool) (s : Opt n d K) :
    let s' := (iterate cfg (fun _ => .ok c) r iters i q s).1
    s'.swarm.pbestCost = (recordEval c s).swarm.pbestCost ∧
      s'.evals = s.evals ++ [(s.swarm.position, c)] := by
  dsimp only
  have hc := iterate_cases cfg (fun _ => .ok c) r iters i q s
  generalize (iterate cfg (fun _ => .ok c) r iters i q s).1 = s' at hc ⊢
  generalize (iterate cfg (fun _ => .ok c) r iters i q s).2 = o at hc
  cases hc with
  | evalError e h => cases h
  | gbestError c' t e h hg => cases h; exact ⟨rfl, rfl⟩
  | stop c' t g h hg hi hq => cases h; exact ⟨rfl, rfl⟩
  | moveError c' t g _ e h hg hns hm =>
    cases h
    have hf := moveSwarm_frame cfg r iters i (recordBest t g (recordEval c s))
    rw [hm] at hf
    exact ⟨hf.2.1, hf.2.2.2.2.2.2.2.2.2.2.2.1⟩
  | moved c' t g _ h hg hns hm =>
    cases h
    have hf := moveSwarm_frame cfg r iters i (recordBest t g (recordEval c s))
    rw [hm] at hf
    exact ⟨hf.2.1, hf.2.2.2.2.2.2.2.2.2.2.2.1⟩

theorem allCosts_of_costs {E F : List (Mat n d K × Costs n K)}
    (h : E.map Prod.snd = F.map Prod.snd) : allCosts E = allCosts F := by
  have : ∀ E : List (Mat n d K × Costs n K),
      allCosts E = (E.map Prod.snd).flatMap fun c => (List.finRange n).map c := by
    intro E; simp [allCosts, List.flatMap_map]
  rw [this, this, h]

end PySwarms
