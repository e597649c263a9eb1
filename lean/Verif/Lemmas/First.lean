import Verif.Lemmas.Runs

/-! Lemmas about the first iteration of a call, and about changing the configuration. -/

set_option linter.unusedSectionVars false

namespace PySwarms

variable {n d : Nat} {K : Type} [Field K] [LinearOrder K] [Transc K] [FloorRing K]

theorem construct_window {cfg : Config n d K} {r1 r2 : InitDraw n d K} {s : Opt n d K}
    (h : construct cfg r1 r2 = .ok s) : 0 < cfg.window := by
  unfold construct at h
  split at h
  · cases h
  · split at h
    · cases h
    · next hf =>
      unfold checkFtolIter at hf
      unfold Config.window
      split at hf
      · next z hz =>
        split at hf
        · next hz' => rw [hz]; dsimp only; omega
        · cases hf
      · cases hf
      · cases hf

theorem reachable_window {cfg : Config n d K} {s : Opt n d K} (h : Reachable cfg s) :
    0 < cfg.window := by
  obtain ⟨r1, r2, s0, ops, hc, -⟩ := h
  exact construct_window hc

/-- If the first iteration cannot complete its update, the call does not return. -/
theorem optimize_first_not_ok (cfg : Config n d K) (hw : 0 < cfg.window)
    (ev : Nat → Mat n d K → Except Err (Costs n K)) (iters : Nat) (hit : 0 < iters)
    (nproc : Option Nat) (env : Nat → Draw n d K) (s : Opt n d K)
    (h : ∀ c t g, ev 0 s.swarm.position = .ok c →
      callGbest cfg (env 0).oracle s.top (recordEval c (startState cfg nproc s)).swarm = (t, .ok g) →
      ∃ s' e, moveSwarm cfg (env 0) iters 0
        (recordBest t g (recordEval c (startState cfg nproc s))) = (s', .error e)) :
    ∀ v, (optimize cfg ev iters nproc env s).2 ≠ .ok v := by
  intro v hv
  have hc := optimize_cases cfg ev iters nproc env s
  generalize (optimize cfg ev iters nproc env s).1 = s' at hc
  rw [hv] at hc
  obtain ⟨m, rfl⟩ : ∃ m, iters = m + 1 := ⟨iters - 1, by omega⟩
  cases hc with
  | done s1 r hp hl hf =>
    have hi := iterate_cases cfg (ev 0) (env 0) (m + 1) 0 [] (startState cfg nproc s)
    rw [loop] at hl
    generalize iterate cfg (ev 0) (env 0) (m + 1) 0 [] (startState cfg nproc s) = o at hl hi
    obtain ⟨s2, e | f⟩ := o
    · cases hl
    · cases hi with
      | stop c t g h' hg hi' hq => omega
      | moved c t g _ h' hg hns hm =>
        obtain ⟨s3, e, h3⟩ := h c t g h' hg
        rw [h3] at hm
        cases hm

/-- If the first iteration fails in its update, that is the outcome of the call. -/
theorem optimize_first_error (cfg : Config n d K) (hw : 0 < cfg.window)
    (ev : Nat → Mat n d K → Except Err (Costs n K)) (iters : Nat) (hit : 0 < iters)
    (nproc : Option Nat) (hp : nproc ≠ some 0) (env : Nat → Draw n d K) (s : Opt n d K)
    (c : Costs n K) (t : TopState n) (g : GBest n d K) (s' : Opt n d K) (e : Err)
    (h : ev 0 s.swarm.position = .ok c)
    (hg : callGbest cfg (env 0).oracle s.top (recordEval c (startState cfg nproc s)).swarm =
      (t, .ok g))
    (hm : moveSwarm cfg (env 0) iters 0
      (recordBest t g (recordEval c (startState cfg nproc s))) = (s', .error e)) :
    optimize cfg ev iters nproc env s = (s', .error e) := by
  obtain ⟨m, rfl⟩ : ∃ m, iters = m + 1 := ⟨iters - 1, by omega⟩
  have hi : iterate cfg (ev 0) (env 0) (m + 1) 0 [] (startState cfg nproc s) = (s', .error e) := by
    unfold iterate
    have h' : ev 0 (startState cfg nproc s).swarm.position = .ok c := h
    rw [h']
    dsimp only
    have hg' : callGbest cfg (env 0).oracle (recordEval c (startState cfg nproc s)).top
      (recordEval c (startState cfg nproc s)).swarm = (t, .ok g) := hg
    rw [hg']
    dsimp only
    rw [if_neg (by simp [hw])]
    rw [hm]
  have hl : loop cfg ev env (m + 1) (m + 1) 0 [] (startState cfg nproc s) = (s', .error e) := by
    rw [loop, hi]
  unfold startState at hl
  unfold optimize
  rw [if_neg hp]
  dsimp only at hl ⊢
  rw [hl]

theorem iterate_congr (cfg cfg' : Config n d K) (h1 : cfg.kind = cfg'.kind)
    (h2 : cfg.args = cfg'.args) (h4 : cfg.window = cfg'.window) (h5 : cfg.ftol = cfg'.ftol)
    (ev : Mat n d K → Except Err (Costs n K)) (r : Draw n d K) (iters i : Nat) (q : List Bool)
    (s : Opt n d K)
    (h6 : ∀ c t g, moveSwarm cfg r iters i (recordBest t g (recordEval c s)) =
      moveSwarm cfg' r iters i (recordBest t g (recordEval c s))) :
    iterate cfg ev r iters i q s = iterate cfg' ev r iters i q s := by
  have hg : ∀ o t (sw : Swarm n d K), callGbest cfg o t sw = callGbest cfg' o t sw := by
    intro o t sw; unfold callGbest; rw [h1, h2]
  unfold iterate
  split
  · rfl
  · dsimp only
    rw [hg]
    split
    · rfl
    · rw [h4, h5, h6]

/-- Configurations that move the swarm in the same way behave the same. -/
theorem optimize_congr (cfg cfg' : Config n d K) (h1 : cfg.kind = cfg'.kind)
    (h2 : cfg.args = cfg'.args) (h4 : cfg.window = cfg'.window) (h5 : cfg.ftol = cfg'.ftol)
    (h6 : ∀ r iters i (s : Opt n d K), moveSwarm cfg r iters i s = moveSwarm cfg' r iters i s)
    (ev : Nat → Mat n d K → Except Err (Costs n K)) (iters : Nat) (nproc : Option Nat)
    (env : Nat → Draw n d K) (s : Opt n d K) :
    optimize cfg ev iters nproc env s = optimize cfg' ev iters nproc env s := by
  have hpr : prepare cfg s = prepare cfg' s := by unfold prepare; rw [h1]
  unfold optimize
  rw [hpr]
  dsimp only
  rw [loop_congr cfg cfg' ev env iters (fun _ => True) (fun _ _ _ _ => trivial)
    (fun i q s _ => iterate_congr cfg cfg' h1 h2 h4 h5 (ev i) (env i) iters i q s
      (fun _ _ _ => h6 _ _ _ _)) _ _ _ _ trivial]

end PySwarms
