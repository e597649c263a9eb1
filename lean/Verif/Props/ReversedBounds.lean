import Verif.Props.Bounds

/-!
# C108: bounds given in the wrong order

Nothing checks `lb < ub` (pyswarms/base/base_single.py:93-124).  Let the bounds of some parameter be
swapped, so that `ub < lb`.
-/

set_option linter.unusedSectionVars false

namespace PySwarms

variable {n d : Nat} {K : Type} [Field K] [LinearOrder K] [IsStrictOrderedRing K] [Transc K]
  [FloorRing K]

/-! ## Helper lemmas -/

theorem lt_or_ge_ends {lb ub x : K} (h : ub < lb) : x < lb ∨ ub < x := by
  rcases lt_or_ge x lb with h1 | h1
  · exact .inl h1
  · exact .inr (lt_of_lt_of_le h h1)

/-- Every position evaluated after the first one of a call comes from the boundary handler. -/
theorem later_evals {cfg : Config n d K} {b : Bounds d K} (hk : cfg.kind ≠ .binary)
    (hcb : cfg.bounds = some b) (ev : Nat → Mat n d K → Except Err (Costs n K)) (iters : Nat)
    (nproc : Option Nat) (env : Nat → Draw n d K) (P : Mat n d K → Prop)
    (hP : ∀ t mem mem' x y, bhCall cfg.bhStrategy mem b (env t).bh x = (mem', .ok y) → P y)
    (s : Opt n d K) :
    ∃ new, (optimize cfg ev iters nproc env s).1.evals = s.evals ++ new ∧ ∀ e ∈ new.tail, P e.1 := by
  have hpos : ∀ (t : Nat) m (sw : Swarm n d K), callPosition cfg (env t) m sw =
      bhCall cfg.bhStrategy m b (env t).bh (fun i j => sw.position i j + sw.velocity i j) := by
    intro t m sw
    unfold callPosition computePosition
    rw [hcb]
    cases hkk : cfg.kind <;> first | rfl | exact absurd hkk hk
  have key : ∀ m t q (z : Opt n d K), ∃ new,
      (loop cfg ev env iters m t q z).1.evals = z.evals ++ new ∧ (∀ e ∈ new.tail, P e.1) ∧
        (P z.swarm.position → ∀ e ∈ new, P e.1) := by
    intro m
    induction m with
    | zero => exact fun t q z => ⟨[], by simp [loop], by simp, by simp⟩
    | succ m ih =>
      intro t q z
      have hc := iterate_cases cfg (ev t) (env t) iters t q z
      rw [loop]
      generalize iterate cfg (ev t) (env t) iters t q z = it at hc ⊢
      obtain ⟨z', out⟩ := it
      dsimp only at hc
      have one : ∀ c : Costs n K, ∃ new, z.evals ++ [(z.swarm.position, c)] = z.evals ++ new ∧
          (∀ e ∈ new.tail, P e.1) ∧ (P z.swarm.position → ∀ e ∈ new, P e.1) := fun c =>
        ⟨[(z.swarm.position, c)], rfl, by simp, fun hp e he => by
          rw [List.mem_singleton.1 he]; exact hp⟩
      cases hc with
      | evalError e h => exact ⟨[], by simp, by simp, by simp⟩
      | gbestError c tp e h hg => exact one c
      | stop c tp g h hg hi hq => exact one c
      | moveError c tp g _ e h hg hns hm =>
        have hf := (moveSwarm_frame cfg (env t) iters t (recordBest tp g (recordEval c z)))
        rw [hm] at hf
        show ∃ new, z'.evals = _ ∧ _
        rw [show z'.evals = z.evals ++ [(z.swarm.position, c)] from
          hf.2.2.2.2.2.2.2.2.2.2.2.1]
        exact one c
      | moved c tp g _ h hg hns hm =>
        have hf := (moveSwarm_frame cfg (env t) iters t (recordBest tp g (recordEval c z)))
        rw [hm] at hf
        have hev : z'.evals = z.evals ++ [(z.swarm.position, c)] := hf.2.2.2.2.2.2.2.2.2.2.2.1
        have hmc := moveSwarm_cases cfg (env t) iters t (recordBest tp g (recordEval c z))
        rw [hm] at hmc
        dsimp only at hmc
        have hpz : P z'.swarm.position := by
          cases hmc with
          | ok o vm v bm p ho hv hp =>
            rw [hpos] at hp
            exact hP t _ _ _ _ hp
        obtain ⟨new', h1, -, h3⟩ := ih (t + 1) (dequeAppend cfg.window q
          (ftolDelta cfg.ftol (recordBest tp g (recordEval c z)).swarm.bestCostVal
            z.swarm.bestCostVal)) z'
        refine ⟨(z.swarm.position, c) :: new', ?_, h3 hpz, fun hp e he => ?_⟩
        · show (loop cfg ev env iters m (t + 1) _ z').1.evals = _
          rw [h1, hev, List.append_assoc]; rfl
        · rcases List.mem_cons.1 he with rfl | he
          · exact hp
          · exact h3 hpz e he
  obtain ⟨new, h1, h2, -⟩ := key iters 0 [] (startState cfg nproc s)
  have hc := optimize_cases cfg ev iters nproc env s
  generalize (optimize cfg ev iters nproc env s).1 = s' at hc ⊢
  generalize (optimize cfg ev iters nproc env s).2 = o at hc
  cases hc with
  | badPool h => exact ⟨[], by simp, by simp⟩
  | loopError s1 e hp h => rw [h] at h1; exact ⟨new, h1, h2⟩
  | finishError s1 e hp h hf => rw [h] at h1; exact ⟨new, h1, h2⟩
  | done r hp s1 h hf => rw [h] at h1; exact ⟨new, h1, h2⟩

/-! ## Theorems -/

/-- **C108** (`init_pos`).  An optimizer with swapped bounds in some dimension accepts no `init_pos`. -/
theorem C108_init_pos (hn : 0 < n) (cfg : Config n d K) (b : Bounds d K) (hk : cfg.kind ≠ .binary)
    (hcb : cfg.bounds = some b) (j : Fin d) (hj : b.2 j < b.1 j) (p : Mat n d K)
    (hp : cfg.initPos = some p) (r1 r2 : InitDraw n d K) (s : Opt n d K) :
    resetSwarm cfg r1 = .error .valueError ∧ construct cfg r1 r2 ≠ .ok s := by
  have hbin : cfg.isBinary = false := by
    unfold Config.isBinary; cases hkk : cfg.kind <;> first | rfl | exact absurd hkk hk
  have hout : ¬ InBox b p := fun h =>
    absurd (le_trans (h ⟨0, hn⟩ j).1 (h ⟨0, hn⟩ j).2) (not_le.2 hj)
  have key : ∀ r, resetSwarm cfg r = .error .valueError := by
    intro r
    unfold resetSwarm createSwarm
    simp only [hbin, Bool.false_eq_true, if_false]
    rw [hp, (C37_init_pos cfg.bounds cfg.center p r.pos).2 ⟨b, hcb, hout⟩]
  refine ⟨key r1, fun h => ?_⟩
  obtain ⟨sw, hsw, -⟩ := construct_ok cfg r1 r2 s h
  rw [key] at hsw
  cases hsw

/-- **C108** (without `init_pos`).  It is otherwise constructed without complaint whenever the same
optimizer without bounds is, with generated positions in `(ub, lb]` (`center = 1`). -/
theorem C108_accepted (b : Bounds d K) (j : Fin d) (hj : b.2 j < b.1 j) (u : Mat n d K)
    (hu : ∀ i j, Unit01 (u i j)) :
    ∃ p : Mat n d K, generateSwarm (some b) (fun _ => 1) none u = .ok p ∧
      ∀ i, b.2 j < p i j ∧ p i j ≤ b.1 j := by
  refine ⟨_, rfl, fun i => ?_⟩
  have hw : 0 < b.1 j - b.2 j := sub_pos.2 hj
  have h1 := mul_nonneg (le_of_lt hw) (hu i j).1
  have h2 := mul_lt_mul_of_pos_left (hu i j).2 hw
  constructor <;> (dsimp only; linarith)

/-- **C108** (`nearest`).  Every evaluation of a call but the first one has this parameter of every
particle on one of the two bounds. -/
theorem C108_nearest (cfg : Config n d K) (b : Bounds d K) (hk : cfg.kind ≠ .binary)
    (hcb : cfg.bounds = some b) (hst : cfg.bhStrategy = "nearest") (j : Fin d) (hj : b.2 j < b.1 j)
    (ev : Nat → Mat n d K → Except Err (Costs n K)) (iters : Nat) (nproc : Option Nat)
    (env : Nat → Draw n d K) (s : Opt n d K) :
    ∃ new, (optimize cfg ev iters nproc env s).1.evals = s.evals ++ new ∧
      ∀ e ∈ new.tail, ∀ i, e.1 i j = b.1 j ∨ e.1 i j = b.2 j := by
  refine later_evals hk hcb ev iters nproc env
    (fun x => ∀ i, x i j = b.1 j ∨ x i j = b.2 j) ?_ s
  intro t mem mem' x y h i
  rw [hst, bhCall, if_pos rfl] at h
  cases h
  unfold bhNearest isLow isHigh
  dsimp only
  by_cases h1 : x i j > b.2 j
  · right; simp [h1]
  · left
    have h2 : x i j < b.1 j := lt_of_le_of_lt (not_lt.1 h1) hj
    simp [h1, h2]

/-- **C108** (`periodic`, the default).  Every evaluation of a call but the first one has this parameter
of every particle outside the interval the user meant: at most `ub` or at least `lb`. -/
theorem C108_periodic (cfg : Config n d K) (b : Bounds d K) (hk : cfg.kind ≠ .binary)
    (hcb : cfg.bounds = some b) (hst : cfg.bhStrategy = "periodic") (j : Fin d) (hj : b.2 j < b.1 j)
    (ev : Nat → Mat n d K → Except Err (Costs n K)) (iters : Nat) (nproc : Option Nat)
    (env : Nat → Draw n d K) (s : Opt n d K) :
    ∃ new, (optimize cfg ev iters nproc env s).1.evals = s.evals ++ new ∧
      ∀ e ∈ new.tail, ∀ i, (2 * b.2 j - b.1 j < e.1 i j ∧ e.1 i j ≤ b.2 j) ∨
        (b.1 j ≤ e.1 i j ∧ e.1 i j < 2 * b.1 j - b.2 j) := by
  refine later_evals hk hcb ev iters nproc env (fun x => ∀ i,
    (2 * b.2 j - b.1 j < x i j ∧ x i j ≤ b.2 j) ∨ (b.1 j ≤ x i j ∧ x i j < 2 * b.1 j - b.2 j)) ?_ s
  intro t mem mem' x y h i
  rw [hst, bhCall, if_neg (by decide), if_neg (by decide), if_neg (by decide), if_neg (by decide),
    if_neg (by decide), if_pos rfl] at h
  rw [bhPeriodic_apply (Prod.mk.inj h).2 i j]
  have hs : |b.2 j - b.1 j| = b.1 j - b.2 j := by
    rw [abs_of_neg (sub_neg.2 hj)]; ring
  have hpos : 0 < b.1 j - b.2 j := sub_pos.2 hj
  rw [hs]
  dsimp only
  by_cases h1 : b.2 j < x i j
  · rw [if_pos h1]
    right
    have := npMod_spec ((if x i j < b.1 j then b.2 j - npMod (b.1 j - x i j) (b.1 j - b.2 j)
      else x i j) - b.2 j) (b.1 j - b.2 j) hpos
    constructor <;> linarith
  · rw [if_neg h1, if_pos (lt_of_le_of_lt (not_lt.1 h1) hj)]
    left
    have := npMod_spec (b.1 j - x i j) (b.1 j - b.2 j) hpos
    constructor <;> linarith

/-- **C108** (`reflective`).  A call of `optimize` with at least one iteration does not return. -/
theorem C108_reflective (hn : 0 < n) (cfg : Config n d K) (b : Bounds d K) (hk : cfg.kind ≠ .binary)
    (hcb : cfg.bounds = some b) (hst : cfg.bhStrategy = "reflective") (hwin : 0 < cfg.window)
    (j : Fin d) (hj : b.2 j < b.1 j)
    (ev : Nat → Mat n d K → Except Err (Costs n K)) (iters : Nat) (hit : 0 < iters)
    (nproc : Option Nat) (env : Nat → Draw n d K) (s : Opt n d K) (v : XR K × Vec d K) :
    (optimize cfg ev iters nproc env s).2 ≠ .ok v := by
  intro hres
  have hc := optimize_cases cfg ev iters nproc env s
  rw [hres] at hc
  generalize (optimize cfg ev iters nproc env s).1 = s' at hc
  cases hc with
  | done s1 _ hnp h hf =>
    obtain ⟨m, rfl⟩ : ∃ m, iters = m + 1 := ⟨iters - 1, by omega⟩
    rw [loop] at h
    have hic := iterate_cases cfg (ev 0) (env 0) (m + 1) 0 [] (startState cfg nproc s)
    generalize iterate cfg (ev 0) (env 0) (m + 1) 0 [] (startState cfg nproc s) = it at hic h
    obtain ⟨z, out⟩ := it
    dsimp only at hic h
    cases hic with
    | evalError e _ => cases h
    | gbestError c tp e _ hg => cases h
    | stop c t g _ hg hi hq => omega
    | moveError c tp g _ e _ hg hns hm => cases h
    | moved c tp g _ _ hg hns hm =>
      have hmc := moveSwarm_cases cfg (env 0) (m + 1) 0
        (recordBest tp g (recordEval c (startState cfg nproc s)))
      rw [hm] at hmc
      dsimp only at hmc
      cases hmc with
      | ok o vm v' bm p ho hv hp =>
        have hpos : ∀ m (sw : Swarm n d K), callPosition cfg (env 0) m sw =
            bhCall cfg.bhStrategy m b (env 0).bh
              (fun i j => sw.position i j + sw.velocity i j) := by
          intro m sw
          unfold callPosition computePosition
          rw [hcb]
          cases hkk : cfg.kind <;> first | rfl | exact absurd hkk hk
        rw [hpos, hst, C17_diverges _ b _ _ ⟨0, hn⟩ j (lt_or_ge_ends hj) hj.le] at hp
        cases (Prod.mk.inj hp).2

/-- **C108** (`random`).  Every evaluation of a call but the first one has all particles at one of two
random places: every particle is relocated at every iteration, whatever its velocity. -/
theorem C108_random (cfg : Config n d K) (b : Bounds d K) (hk : cfg.kind ≠ .binary)
    (hcb : cfg.bounds = some b) (hst : cfg.bhStrategy = "random") (j : Fin d) (hj : b.2 j < b.1 j)
    (ev : Nat → Mat n d K → Except Err (Costs n K)) (iters : Nat) (nproc : Option Nat)
    (env : Nat → Draw n d K) (s : Opt n d K) :
    ∃ new, (optimize cfg ev iters nproc env s).1.evals = s.evals ++ new ∧
      ∀ e ∈ new.tail, ∃ t, ∀ i,
        (e.1 i = fun k => (b.2 k - b.1 k) * (env t).bh.u k + b.1 k) ∨
        (e.1 i = fun k => (b.2 k - b.1 k) * (env t).bh.l k + b.1 k) := by
  refine later_evals hk hcb ev iters nproc env (fun x => ∃ t, ∀ i,
        (x i = fun k => (b.2 k - b.1 k) * (env t).bh.u k + b.1 k) ∨
        (x i = fun k => (b.2 k - b.1 k) * (env t).bh.l k + b.1 k)) ?_ s
  intro t mem mem' x y h
  rw [hst, bhCall, if_neg (by decide), if_neg (by decide), if_neg (by decide), if_pos rfl] at h
  cases h
  refine ⟨t, fun i => ?_⟩
  have hrow : rowLow b x i = true ∨ rowHigh b x i = true := by
    rcases lt_or_ge_ends (x := x i j) hj with h | h
    · exact .inl ((rowLow_iff b x i).2 ⟨j, h⟩)
    · exact .inr ((rowHigh_iff b x i).2 ⟨j, h⟩)
  unfold bhRandom
  cases hl : rowLow b x i with
  | true => right; simp
  | false =>
    left
    rw [hrow.resolve_left (by rw [hl]; simp)]
    simp

/-! ## The hypotheses can be met -/

namespace Ex

/-- One parameter, between `10` and `0`. -/
def swappedCfg (bh : String) : Config 2 1 ℚ where
  kind := .globalBest
  options := opts
  bounds := some (fun _ => 10, fun _ => 0)
  center := fun _ => 1
  bhStrategy := bh

def swappedAfter (bh : String) : Option (List (ℚ × ℚ)) :=
  match construct (swappedCfg bh) (init 2 1) (init 2 1) with
  | .error _ => none
  | .ok s =>
    match optimize (swappedCfg bh) (sphere 2 1) 2 none (fun _ => draw 2 1) s with
    | (s', .ok _) => some (s'.evals.map fun e => (e.1 0 0, e.1 1 0))
    | _ => none

/-- The two evaluations of a call with two iterations: the start `(10, 15/2)`, and then two bounds with
`nearest`, outside `(0, 10)` with `periodic`. -/
example : swappedAfter "nearest" = some [(10, 15 / 2), (0, 0)] ∧
    swappedAfter "periodic" = some [(10, 15 / 2), (119 / 6, 71 / 4)] ∧
    swappedAfter "random" = some [(10, 15 / 2), (15 / 2, 15 / 2)] ∧
    swappedAfter "reflective" = none ∧ 0 < (swappedCfg "reflective").window ∧
    (swappedCfg "nearest").kind ≠ .binary ∧ (fun _ => 0 : Vec 1 ℚ) 0 < (fun _ => 10 : Vec 1 ℚ) 0 := by
  decide +kernel

end Ex

end PySwarms
