import Verif.Lemmas.Runs
import Verif.Model.DelannoyCalls
import Verif.Props.Topology
import Verif.Examples

/-!
# How many particles a neighbourhood needs (C127)
-/

namespace PySwarms

variable {n d : Nat} {K : Type}

/-! ## Specification -/

/-- `GeneralOptimizerPSO` with a topology whose neighbourhoods have more members than there are particles
(`Ring`, `VonNeumann`; the particle itself counts) or than there are other particles (`Random`), and
the exception that is raised. -/
def TooSmall (cfg : Config n d K) (e : Err) : Prop :=
  (e = .indexError ∧ ∃ p, cfg.args.p = some p ∧ p ≠ 0 ∧
    ((∃ st k, cfg.kind = .general (.ring st) ∧ cfg.args.k = some k ∧ n < k) ∨
      ∃ r, cfg.kind = .general .vonNeumann ∧ cfg.args.r = some r ∧ n < delannoy d r)) ∨
  (e = .valueError ∧ ∃ st k, cfg.kind = .general (.random st) ∧ cfg.args.k = some k ∧ n ≤ k)

/-! ## Numbers -/

theorem delannoy_one (d : Nat) : delannoy d 1 = 2 * d + 1 := by
  induction d with
  | zero => simp [delannoy]
  | succ d ih =>
    rw [delannoy, ih]
    have h : delannoy d 0 = 1 := by cases d <;> simp [delannoy]
    have h' : delannoy (d + 1) 0 = 1 := by simp [delannoy]
    rw [h, h']; omega

theorem delannoy_two (d : Nat) : delannoy d 2 = 2 * d ^ 2 + 2 * d + 1 := by
  induction d with
  | zero => simp [delannoy]
  | succ d ih =>
    rw [delannoy, ih, delannoy_one, delannoy_one]
    ring

theorem delannoy_pos (d r : Nat) : 1 ≤ delannoy d r := by
  induction d, r using delannoy.induct with
  | case1 r => simp [delannoy]
  | case2 d => simp [delannoy]
  | case3 d r h1 h2 h3 => rw [delannoy]; omega

theorem delannoy_mono_right (d r : Nat) : delannoy d r ≤ delannoy d (r + 1) := by
  cases d with
  | zero => simp [delannoy]
  | succ d => rw [delannoy.eq_3]; omega

theorem delannoy_mono_left (d r : Nat) : delannoy d r ≤ delannoy (d + 1) r := by
  rw [C13_delannoy_symm d r, C13_delannoy_symm (d + 1) r]
  exact delannoy_mono_right r d

theorem delannoy_triple (d r : Nat) : 3 * delannoy d r ≤ delannoy (d + 1) (r + 1) := by
  rw [delannoy.eq_3]
  have h1 := delannoy_mono_right d r
  have h2 := delannoy_mono_left d r
  omega

/-- C127: the number of neighbours of a VonNeumann topology: `2 d + 1` for range 1,
`2 d² + 2 d + 1` for range 2; it never decreases with the range or the dimension, and is at least
`3 ^ min d r`. -/
theorem C127_neighbours (d r : Nat) :
    delannoy d 1 = 2 * d + 1 ∧ delannoy d 2 = 2 * d ^ 2 + 2 * d + 1 ∧
      delannoy d r ≤ delannoy d (r + 1) ∧ delannoy d r ≤ delannoy (d + 1) r ∧
      3 ^ min d r ≤ delannoy d r := by
  refine ⟨delannoy_one d, delannoy_two d, delannoy_mono_right d r, delannoy_mono_left d r, ?_⟩
  induction d generalizing r with
  | zero => simp [delannoy]
  | succ d ih =>
    cases r with
    | zero => simp [delannoy]
    | succ r =>
      have h1 := ih r
      have h2 := delannoy_triple d r
      rw [Nat.succ_min_succ, pow_succ]
      omega

/-- C127: computing the number `D` of neighbours, which `compute_gbest` does in every iteration, takes
`(3 D - 1) / 2` calls. -/
theorem C127_calls (d r : Nat) :
    (delannoyCount d r).1 = delannoy d r ∧ 2 * (delannoyCount d r).2 + 1 = 3 * delannoy d r := by
  induction d, r using delannoyCount.induct with
  | case1 r => simp [delannoyCount, delannoy]
  | case2 d => simp [delannoyCount, delannoy]
  | case3 d r h1 h2 h3 =>
    rw [delannoyCount, delannoy]
    omega

/-! ## Runs -/

section
variable [Field K] [LinearOrder K]

omit [Field K] in
theorem ringGbest_tooMany (st : Bool) (k p : Nat) (o : Oracle n d K) (t : TopState n) (ht : t.neighbor = none)
    (s : Swarm n d K) (h0 : ¬ (k = 0 ∨ p = 0)) (h1 : k > n ∧ k ≠ 1) :
    ringGbest st k p o t s = (t, .error .indexError) := by
  have hq : ringQuery k p o s.position = .error .indexError := by rw [ringQuery, if_neg h0, if_pos h1]
  unfold ringGbest
  cases st <;> simp [ht, hq]

omit [Field K] in
theorem tooSmall_gbest (hn : 0 < n) (cfg : Config n d K) (e : Err) (h : TooSmall cfg e) (o : Oracle n d K) (t : TopState n)
    (ht : t.neighbor = none) (s : Swarm n d K) : callGbest cfg o t s = (t, .error e) := by
  obtain ⟨rfl, p, hp, hp0, ⟨st, k, hk, hkk, hlt⟩ | ⟨r, hk, hr, hlt⟩⟩ | ⟨rfl, st, k, hk, hkk, hle⟩ := h
  · unfold callGbest
    rw [hk]
    simp only [computeGbest, hkk, hp]
    have h0 : ¬ (k = 0 ∨ p = 0) := by omega
    have h1 : k > n ∧ k ≠ 1 := by omega
    exact ringGbest_tooMany st k p o t ht s h0 h1
  · unfold callGbest
    rw [hk]
    simp only [computeGbest, hr, hp]
    have h0 : ¬ (delannoy d r = 0 ∨ p = 0) := by omega
    have h1 : delannoy d r > n ∧ delannoy d r ≠ 1 := by omega
    exact ringGbest_tooMany true _ p o t ht s h0 h1
  · unfold callGbest
    rw [hk]
    simp only [computeGbest, hkk]
    have hq : randomNeighbors k (o.choice k) = .error .valueError := by
      rw [randomNeighbors, if_neg (by omega), if_pos (by omega)]
    unfold randomGbest
    cases st <;> simp [ht, hq]

variable [Transc K] [FloorRing K]

theorem tooSmall_iterate (hn : 0 < n) (cfg : Config n d K) (e : Err) (h : TooSmall cfg e)
    (ev : Mat n d K → Except Err (Costs n K)) (r : Draw n d K) (iters i : Nat) (q : List Bool)
    (s : Opt n d K) (ht : s.top.neighbor = none) :
    iterate cfg ev r iters i q s = match ev s.swarm.position with
      | .error e' => (s, .error e')
      | .ok c => (recordEval c s, .error e) := by
  unfold iterate
  cases hc : ev s.swarm.position with
  | error e => rfl
  | ok c =>
    simp only [tooSmall_gbest hn cfg e h r.oracle (recordEval c s).top ht (recordEval c s).swarm]

theorem tooSmall_none (hn : 0 < n) (cfg : Config n d K) (e : Err) (h : TooSmall cfg e) (s : Opt n d K)
    (hr : Reachable cfg s) : s.top.neighbor = none := by
  obtain ⟨r1, r2, s0, ops, hc, rfl⟩ := hr
  refine runOps_inv cfg (fun s => s.top.neighbor = none) (fun _ => True) ?_ ops (fun _ _ => trivial) s0 ?_
  · intro s op _ hs
    cases op with
    | reset r =>
      simp only [stepOp, reset]
      split <;> exact hs
    | optimize ev iters nproc env =>
      refine optimize_inv cfg ev iters nproc env (fun s => s.top.neighbor = none)
        (fun _ _ _ _ h => h) (fun _ h => h) (fun i q s hs => ?_) s hs
      rw [tooSmall_iterate hn cfg e h (ev i) (env i) iters i q s hs]
      cases ev i s.swarm.position <;> exact hs
  · unfold construct at hc
    split at hc
    · cases hc
    · split at hc
      · cases hc
      · split at hc
        · cases hc
        · split at hc
          · cases hc
          · cases hc; rfl

/-- C127: with too few particles for the neighbourhoods the optimizer can be constructed, but no
call of `optimize` ever returns, whatever calls came before: the objective is evaluated once, then
`IndexError` (Ring, VonNeumann) or `ValueError` (Random) is raised (unless the objective itself raises),
nothing is recorded and nothing moves. -/
theorem C127_too_small (hn : 0 < n) (cfg : Config n d K) (e : Err) (h : TooSmall cfg e) (s : Opt n d K)
    (hr : Reachable cfg s) (ev : Nat → Mat n d K → Except Err (Costs n K)) (iters : Nat) (hi : 0 < iters)
    (nproc : Option Nat) (hp : nproc ≠ some 0) (env : Nat → Draw n d K) :
    (∀ e', ev 0 s.swarm.position = .error e' → (optimize cfg ev iters nproc env s).2 = .error e' ∧
      (optimize cfg ev iters nproc env s).1.evals = s.evals) ∧
    (∀ c, ev 0 s.swarm.position = .ok c → (optimize cfg ev iters nproc env s).2 = .error e ∧
      (optimize cfg ev iters nproc env s).1.evals = s.evals ++ [(s.swarm.position, c)]) ∧
    (optimize cfg ev iters nproc env s).1.costHistory = s.costHistory ∧
    (optimize cfg ev iters nproc env s).1.posHistory = s.posHistory ∧
    (optimize cfg ev iters nproc env s).1.swarm.position = s.swarm.position ∧
    (optimize cfg ev iters nproc env s).1.swarm.velocity = s.swarm.velocity := by
  have ht := tooSmall_none hn cfg e h s hr
  obtain ⟨m, rfl⟩ : ∃ m, iters = m + 1 := ⟨iters - 1, by omega⟩
  unfold optimize
  rw [if_neg hp]
  dsimp only
  rw [loop, tooSmall_iterate hn cfg e h (ev 0) (env 0) (m + 1) 0 [] { prepare cfg s with
    openPools := s.openPools + (if nproc.isSome then 1 else 0) } (show s.top.neighbor = none from ht)]
  have hpos : (prepare cfg s).swarm.position = s.swarm.position := rfl
  simp only [hpos]
  cases ev 0 s.swarm.position with
  | error e0 =>
    refine ⟨?_, ?_, rfl, rfl, rfl, rfl⟩
    · rintro e' h; cases h; exact ⟨rfl, rfl⟩
    · rintro c h; cases h
  | ok c =>
    refine ⟨?_, ?_, rfl, rfl, rfl, rfl⟩
    · rintro e' h; cases h
    · rintro c' h; cases h; exact ⟨rfl, rfl⟩

end

namespace Ex

/-- GeneralOptimizerPSO with VonNeumann, range 1, in two dimensions. -/
def vnCfg (n : Nat) : Config n 2 ℚ :=
  { gcfg n 2 with kind := .general .vonNeumann, args := { p := some 2, r := some 1 } }

/-- Is the optimizer constructed, and what does one iteration give? -/
def vnOutcome (n : Nat) : Option (Option Err) :=
  match construct (vnCfg n) (init n 2) (init n 2) with
  | .error _ => none
  | .ok s => match (optimize (vnCfg n) (sphere n 2) 1 none (fun _ => draw n 2) s).2 with
    | .ok _ => some none
    | .error e => some (some e)

end Ex

/-- The hypotheses on the example: four particles are too few in two dimensions, five are enough. -/
example : TooSmall (Ex.vnCfg 4) .indexError ∧ Ex.vnOutcome 4 = some (some .indexError) ∧ Ex.vnOutcome 5 = some none := by
  refine ⟨.inl ⟨rfl, 2, rfl, by decide, .inr ⟨1, rfl, rfl, ?_⟩⟩, by decide +kernel, by decide +kernel⟩
  rw [delannoy_one]
  decide

end PySwarms
