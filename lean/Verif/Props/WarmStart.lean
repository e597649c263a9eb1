import Verif.Props.Chance
import Verif.Props.Best
import Verif.Props.Local

/-!
# C121: a starting solution is not lost in the first call

`init_pos` rows that are already good solutions, and results of one run passed on to the next.
-/

set_option linter.unusedSectionVars false

namespace PySwarms

variable {n d : Nat} {K : Type} [Field K] [LinearOrder K] [Transc K] [FloorRing K]

/-! ## Specification -/

/-- An objective that computes the cost of each particle from its position. -/
def costOf (f : Vec d K → XR K) : Nat → Mat n d K → Except Err (Costs n K) :=
  fun _ x => .ok fun i => f (x i)

/-- One stage of a staged optimization: a new optimizer, and one call of `optimize` on it. -/
structure Stage (f : Vec d K → XR K) where
  particles : Nat
  cfg : Config particles d K
  start : Opt particles d K
  made : ∃ r1 r2, construct cfg r1 r2 = .ok start
  iters : Nat
  iters_pos : 1 ≤ iters
  nproc : Option Nat
  env : Nat → Draw particles d K
  after : Opt particles d K
  cost : XR K
  pos : Vec d K
  returned : optimize cfg (costOf f) iters nproc env start = (after, .ok (cost, pos))

/-- Some row of the next stage's `init_pos` is the position the stage returned. -/
def Stage.handsOver {f : Vec d K → XR K} (a b : Stage f) : Prop :=
  ∃ x i, b.cfg.initPos = some x ∧ x i = a.pos

/-! ## Helper lemmas -/

theorem fresh_position (cfg : Config n d K) (x : Mat n d K) (hx : cfg.initPos = some x) (s : Opt n d K)
    (hs : Fresh cfg s) : s.swarm.position = x ∧ s.evals = [] := by
  obtain ⟨r, sw, t, a, b, q, hsw, rfl⟩ := fresh_cases cfg s hs
  refine ⟨?_, rfl⟩
  show sw.position = x
  unfold resetSwarm createSwarm at hsw
  rw [hx] at hsw
  dsimp only at hsw
  cases hb : cfg.isBinary with
  | true =>
    simp only [hb, if_true, generateDiscreteSwarm] at hsw
    split at hsw
    · cases hsw
    · rename_i p hp
      cases hsw
      show p = x
      split at hp
      · cases hp
      · cases hp; rfl
  | false =>
    simp only [hb, Bool.false_eq_true, if_false, generateSwarm] at hsw
    split at hsw
    · cases hsw
    · rename_i p hp
      cases hsw
      show p = x
      cases hbd : cfg.bounds with
      | none => rw [hbd] at hp; cases hp; rfl
      | some b =>
        rw [hbd] at hp
        dsimp only at hp
        split at hp
        · cases hp; rfl
        · cases hp

theorem optimize_evals_first (cfg : Config n d K) (f : Vec d K → XR K) (iters : Nat) (hi : 1 ≤ iters)
    (nproc : Option Nat) (hp : nproc ≠ some 0) (env : Nat → Draw n d K) (s : Opt n d K) :
    ∃ E, (optimize cfg (costOf f) iters nproc env s).1.evals =
      s.evals ++ (s.swarm.position, fun i => f (s.swarm.position i)) :: E := by
  obtain ⟨m, rfl⟩ := Nat.exists_eq_add_of_le' hi
  obtain ⟨E, hE⟩ := loop_first cfg (costOf f) env (m + 1) m 0 [] (startState cfg nproc s)
    (fun i => f (s.swarm.position i)) rfl
  refine ⟨E, ?_⟩
  have hc := optimize_cases cfg (costOf f) (m + 1) nproc env s
  rcases ho : optimize cfg (costOf f) (m + 1) nproc env s with ⟨s', o⟩
  rw [ho] at hc
  simp only at hc ⊢
  cases hc with
  | badPool h => exact absurd h hp
  | loopError s1 e _ hl => rw [hl] at hE; exact hE
  | finishError s1 e _ hl _ => rw [hl] at hE; exact hE
  | done s1 r _ hl _ => rw [hl] at hE; exact hE

theorem optimize_nproc (cfg : Config n d K) (ev : Nat → Mat n d K → Except Err (Costs n K))
    (iters : Nat) (nproc : Option Nat) (env : Nat → Draw n d K) (s s' : Opt n d K) (v : XR K × Vec d K)
    (h : optimize cfg ev iters nproc env s = (s', .ok v)) : nproc ≠ some 0 := by
  rintro rfl
  unfold optimize at h
  simp at h

/-! ## Theorems -/

/-- **C121** (every call).  The position that a call returns costs no more than any of the positions
the swarm had when the call began, for every optimizer and topology, also after other calls. -/
theorem C121_call (cfg : Config n d K) (s : Opt n d K) (hs : Reachable cfg s) (f : Vec d K → XR K)
    (iters : Nat) (hi : 1 ≤ iters) (nproc : Option Nat) (env : Nat → Draw n d K) (s' : Opt n d K)
    (v : XR K) (p : Vec d K) (ho : optimize cfg (costOf f) iters nproc env s = (s', .ok (v, p)))
    (i : Fin n) : XR.lt (f (s.swarm.position i)) (f p) = false := by
  obtain ⟨E0, hE0⟩ := optimize_evals_first cfg f iters hi nproc
    (optimize_nproc cfg _ iters nproc env s s' _ ho) env s
  rw [ho] at hE0
  have key : ∃ E m, s'.evals = s.evals ++ E ∧ LogOf (costOf f) E ∧ IsMinOf m (allCosts E) ∧
      (m ≠ XR.pinf → ∃ e ∈ E, ∃ i, e.1 i = p ∧ e.2 i = m) := by
    by_cases hk : cfg.kind.top = .star
    · have hk' : cfg.kind.isStar := by
        revert hk
        rcases cfg.kind with _ | _ | t | _
        · exact fun _ => trivial
        · exact fun h => by cases h
        · exact fun h => by rw [show t = .star from h]; trivial
        · exact fun h => by cases h
      obtain ⟨E, m, h1, h2, h3, -, h4, -⟩ := C06_repeated_call (Fin.pos i) cfg hk' s hs _ iters nproc
        env s' v p ho
      refine ⟨E, m, h1, h2, h3, fun hm => ?_⟩
      rcases h4 with h4 | h4
      · exact h4.2
      · exact absurd h4.1 hm
    · obtain ⟨E, m, h1, h2, h3, h4, -⟩ := C08_position_optimal cfg hk s s' _ iters hi nproc env v p ho
      exact ⟨E, m, h1, h2, h3, h4⟩
  obtain ⟨E, m, h1, h2, h3, h4⟩ := key
  rw [h1] at hE0
  obtain rfl := List.append_cancel_left hE0
  have hmin := h3.2.2 (f (s.swarm.position i)) ((mem_allCosts _ _).2 ⟨_, List.mem_cons_self .., i, rfl⟩)
  by_cases hm : m = XR.pinf
  · rw [hm] at hmin
    generalize f (s.swarm.position i) = y at hmin ⊢
    cases y <;> first | (simp [XR.lt] at hmin; done) | (cases f p <;> rfl)
  · obtain ⟨e, he, a, hep, hea⟩ := h4 hm
    obtain ⟨t, ht, hte⟩ := List.mem_iff_getElem.1 he
    have h5 := h2 t ht
    rw [hte] at h5
    simp only [costOf, Except.ok.injEq] at h5
    rw [← congrFun h5 a, hep] at hea
    rw [hea]
    exact hmin

/-- **C121** (first call).  The first call after construction or `reset` returns a position that costs
no more than any row of `init_pos`. -/
theorem C121_first_call (cfg : Config n d K) (x : Mat n d K) (hx : cfg.initPos = some x) (s : Opt n d K)
    (hs : Reachable cfg s) (hf : Fresh cfg s) (f : Vec d K → XR K)
    (iters : Nat) (hi : 1 ≤ iters) (nproc : Option Nat) (env : Nat → Draw n d K) (s' : Opt n d K)
    (v : XR K) (p : Vec d K) (ho : optimize cfg (costOf f) iters nproc env s = (s', .ok (v, p)))
    (i : Fin n) : XR.lt (f (x i)) (f p) = false := by
  have := C121_call cfg s hs f iters hi nproc env s' v p ho i
  rwa [(fresh_position cfg x hx s hf).1] at this

/-- **C121** (staged optimization).  If every stage passes the position it returned on to the next stage
as a row of `init_pos`, the last position costs no more than that of any earlier stage, whatever the
optimizers, numbers of particles, options and topologies. -/
theorem C121_stages (f : Vec d K → XR K) (hf : ∀ y, f y ≠ XR.nan) (stages : List (Stage f))
    (h : stages.IsChain Stage.handsOver) (a b : Nat) (hab : a ≤ b) (hb : b < stages.length) :
    XR.lt (f stages[a].pos) (f stages[b].pos) = false := by
  have step : ∀ p q : Stage f, p.handsOver q → XR.lt (f p.pos) (f q.pos) = false := by
    rintro p q ⟨x, i, hx, hi⟩
    obtain ⟨r1, r2, hc⟩ := q.made
    rw [← hi]
    exact C121_first_call q.cfg x hx q.start ⟨r1, r2, q.start, [], hc, rfl⟩ (Or.inl ⟨r1, r2, hc⟩) f
      q.iters q.iters_pos q.nproc q.env q.after q.cost q.pos q.returned i
  have trans : ∀ x y z : XR K, x ≠ .nan → y ≠ .nan → z ≠ .nan → XR.lt x y = false → XR.lt y z = false →
      XR.lt x z = false := by
    intro x y z hx hy hz h1 h2
    cases x <;> cases y <;> cases z <;> simp_all [XR.lt]
    exact le_trans h2 h1
  induction hab with
  | refl => generalize f stages[a].pos = y; cases y <;> simp [XR.lt]
  | step hab ih =>
    rename_i b'
    refine trans _ _ _ (hf _) (hf _) (hf _) (ih (by omega)) (step _ _ ?_)
    exact List.isChain_iff_getElem.1 h b' hb

/-- **C121** (later calls, star).  With GlobalBestPSO (or the Star topology) the cost returned by any
later call with the same objective is no larger than the costs of the rows of `init_pos` either. -/
theorem C121_star_cost (cfg : Config n d K) (hk : cfg.kind.isStar) (x : Mat n d K)
    (hx : cfg.initPos = some x) (s : Opt n d K) (hs : Reachable cfg s) (hf : Fresh cfg s)
    (f : Vec d K → XR K) (ops : List (Op n d K))
    (hops : ∀ op ∈ ops, ∃ iters nproc env, op = .optimize (costOf f) iters nproc env)
    (iters : Nat) (hi : 1 ≤ iters) (nproc : Option Nat) (env : Nat → Draw n d K) (s' : Opt n d K)
    (v : XR K) (p : Vec d K)
    (ho : optimize cfg (costOf f) iters nproc env (runOps cfg s ops) = (s', .ok (v, p)))
    (i : Fin n) : XR.lt (f (x i)) v = false := by
  have hinv : ∀ (ops : List (Op n d K)) (s : Opt n d K),
      (∀ op ∈ ops, ∃ iters nproc env, op = .optimize (costOf f) iters nproc env) →
      (s.swarm.position = x ∨ (x, fun i => f (x i)) ∈ s.evals) →
      ((runOps cfg s ops).swarm.position = x ∨ (x, fun i => f (x i)) ∈ (runOps cfg s ops).evals) := by
    intro ops
    induction ops with
    | nil => intro s _ h; exact h
    | cons op ops ih =>
      intro s h1 h2
      refine ih (stepOp cfg s op) (fun o ho => h1 o (List.mem_cons_of_mem _ ho)) ?_
      obtain ⟨it, np, en, rfl⟩ := h1 op (List.mem_cons_self ..)
      show (optimize cfg (costOf f) it np en s).1.swarm.position = x ∨
        _ ∈ (optimize cfg (costOf f) it np en s).1.evals
      by_cases hnp : np = some 0
      · subst hnp
        simpa [optimize] using h2
      · rcases Nat.eq_zero_or_pos it with rfl | hit
        · have : (optimize cfg (costOf f) 0 np en s).1.swarm.position = s.swarm.position ∧
              (optimize cfg (costOf f) 0 np en s).1.evals = s.evals := by
            simp only [optimize, hnp, if_false, loop]
            split <;> exact ⟨rfl, rfl⟩
          rw [this.1, this.2]
          exact h2
        · obtain ⟨E, hE⟩ := optimize_evals_first cfg f it hit np hnp en s
          right
          rw [hE]
          rcases h2 with h2 | h2
          · rw [h2]
            exact List.mem_append_right _ (List.mem_cons_self ..)
          · exact List.mem_append_left _ h2
  have hs' : Reachable cfg (runOps cfg s ops) := by
    obtain ⟨r1, r2, s0, ops0, hc, rfl⟩ := hs
    exact ⟨r1, r2, s0, ops0 ++ ops, hc, by rw [runOps, runOps, runOps, List.foldl_append]⟩
  obtain ⟨E, m, h1, -, -, h2, -⟩ := C06_repeated_call (Fin.pos i) cfg hk _ hs' _ iters nproc env s' v p ho
  obtain ⟨E0, hE0⟩ := optimize_evals_first cfg f iters hi nproc
    (optimize_nproc cfg _ iters nproc env _ s' _ ho) env (runOps cfg s ops)
  rw [ho, h1] at hE0
  obtain rfl := List.append_cancel_left hE0
  refine h2.2.2 _ (List.mem_append.2 ?_)
  rcases hinv ops s hops (Or.inl (fresh_position cfg x hx s hf).1) with h | h
  · right
    exact (mem_allCosts _ _).2 ⟨_, List.mem_cons_self .., i, by rw [h]⟩
  · left
    exact (mem_allCosts _ _).2 ⟨_, h, i, rfl⟩

namespace Ex

/-- The optimizer starts from 0 and 4. -/
def zeroFour : Mat 2 1 ℚ := fun i _ => if i = 0 then 0 else 4

/-- `x ** 2`. -/
def squareOf : Vec 1 ℚ → XR ℚ := fun y => .fin (y 0 * y 0)

/-- The returned costs and positions of two calls of one iteration each on a new optimizer. -/
def twoCalls (cfg : Config 2 1 ℚ) : List (Option (ℚ × ℚ)) :=
  match construct cfg (init 2 1) (init 2 1) with
  | .error _ => []
  | .ok s =>
    let a := optimize cfg (costOf squareOf) 1 none (fun _ => draw 2 1) s
    let b := optimize cfg (costOf squareOf) 1 none (fun _ => draw 2 1) a.1
    [a, b].map fun r => match r.2 with
      | .ok (.fin c, p) => some (c, p 0)
      | _ => none

end Ex

/-- **C121** (later calls lose it).  Started from 0 and 4, GlobalBestPSO and LocalBestPSO minimising `x ** 2`
return 0 from the first call; the second call returns the position 1/4, whose cost is larger (and
LocalBestPSO also returns this larger cost). -/
theorem C121_second_call :
    Ex.twoCalls { Ex.gcfg 2 1 with initPos := some Ex.zeroFour } = [some (0, 0), some (0, 1 / 4)] ∧
    Ex.twoCalls { Ex.rcfg 2 1 false 2 with initPos := some Ex.zeroFour } =
      [some (0, 0), some (1 / 16, 1 / 4)] := by
  decide +kernel

-- the hypotheses of `C121_call`, `C121_first_call` and `C121_star_cost` hold for these optimizers, and
-- `C121_stages` for the results 0 and 0 of two stages
example : ∃ s, construct { Ex.gcfg 2 1 with initPos := some Ex.zeroFour } (Ex.init 2 1) (Ex.init 2 1)
      = .ok s ∧ Reachable { Ex.gcfg 2 1 with initPos := some Ex.zeroFour } s ∧
      Fresh { Ex.gcfg 2 1 with initPos := some Ex.zeroFour } s :=
  ⟨_, rfl, ⟨Ex.init 2 1, Ex.init 2 1, _, [], rfl, rfl⟩, Or.inl ⟨Ex.init 2 1, Ex.init 2 1, rfl⟩⟩

/-- Two stages, GlobalBestPSO and LocalBestPSO; the second is started from the first result and 9. -/
example : ∃ a b : Stage Ex.squareOf, a.handsOver b ∧ a.particles = 2 ∧ b.particles = 2 ∧
    a.cfg.kind = .globalBest ∧ b.cfg.kind = .localBest false ∧ 0 < a.pos 0 := by
  let c1 : Config 2 1 ℚ := { Ex.gcfg 2 1 with initPos := some fun i _ => (i : ℕ) + 1 }
  obtain ⟨s1, h1⟩ : ∃ s, construct c1 (Ex.init 2 1) (Ex.init 2 1) = .ok s := ⟨_, rfl⟩
  have k1 : (match construct c1 (Ex.init 2 1) (Ex.init 2 1) with
    | .ok s => match optimize c1 (costOf Ex.squareOf) 1 none (fun _ => Ex.draw 2 1) s with
      | (_, .ok (_, p)) => decide (p 0 = 1)
      | _ => false
    | _ => false) = true := by decide +kernel
  rw [h1] at k1
  dsimp only at k1
  rcases o1 : optimize c1 (costOf Ex.squareOf) 1 none (fun _ => Ex.draw 2 1) s1 with ⟨a1, e | ⟨v1, p1⟩⟩
  · rw [o1] at k1; cases k1
  rw [o1] at k1
  have hp1 : p1 = fun _ => 1 := funext fun j => by
    rw [Subsingleton.elim j 0]
    exact of_decide_eq_true k1
  subst hp1
  let c2 : Config 2 1 ℚ := { Ex.rcfg 2 1 false 2 with initPos := some fun i _ => if i = 0 then 1 else 9 }
  obtain ⟨s2, h2⟩ : ∃ s, construct c2 (Ex.init 2 1) (Ex.init 2 1) = .ok s := ⟨_, rfl⟩
  have k2 : ∃ a2 v2 p2, optimize c2 (costOf Ex.squareOf) 1 none (fun _ => Ex.draw 2 1) s2 = (a2, .ok (v2, p2)) := by
    have k : (match construct c2 (Ex.init 2 1) (Ex.init 2 1) with
      | .ok s => match optimize c2 (costOf Ex.squareOf) 1 none (fun _ => Ex.draw 2 1) s with
        | (_, .ok _) => true
        | _ => false
      | _ => false) = true := by decide +kernel
    rw [h2] at k
    dsimp only at k
    rcases o2 : optimize c2 (costOf Ex.squareOf) 1 none (fun _ => Ex.draw 2 1) s2 with ⟨a2, e | ⟨v2, p2⟩⟩
    · rw [o2] at k; cases k
    · exact ⟨_, _, _, rfl⟩
  obtain ⟨a2, v2, p2, o2⟩ := k2
  exact ⟨⟨2, c1, s1, ⟨_, _, h1⟩, 1, le_refl 1, none, _, a1, v1, _, o1⟩,
    ⟨2, c2, s2, ⟨_, _, h2⟩, 1, le_refl 1, none, _, a2, v2, p2, o2⟩, ⟨_, (0 : Fin 2), rfl, rfl⟩, rfl, rfl, rfl, rfl,
    one_pos⟩

end PySwarms
