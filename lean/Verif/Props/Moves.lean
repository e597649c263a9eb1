import Verif.Lemmas.First
import Verif.Lemmas.Star
import Verif.Props.Bounds

/-!
# The position and velocity updates of a run (C23, C25, C26, C32, C36, C53, C54)
-/

set_option linter.unusedSectionVars false

namespace PySwarms

variable {n d : Nat} {K : Type} [Field K] [LinearOrder K] [IsStrictOrderedRing K] [Transc K]
  [FloorRing K]

/-! ## C23 -/

/-- The swarm has not moved from `x0`; every velocity so far is the initial one or zero. -/
structure Frozen (x0 v0 : Mat n d K) (s : Opt n d K) : Prop where
  position : s.swarm.position = x0
  pbest : s.swarm.pbestPos = x0
  velocity : s.swarm.velocity = v0 ∨ s.swarm.velocity = fun _ _ => 0
  positions : ∀ x ∈ s.posHistory, x = x0
  evals : ∀ e ∈ s.evals, e.1 = x0
  velocities : ∀ v ∈ s.velocityHistory, v = v0 ∨ v = fun _ _ => 0

/-- The hypotheses of C23. -/
structure FreezeCfg (cfg : Config n d K) (x0 : Mat n d K) : Prop where
  kind : cfg.kind ≠ .binary
  vh : cfg.vhStrategy = "adjust"
  clamp : ∀ c, cfg.clamp = some c → ∀ j, c.1 j ≤ 0 ∧ 0 ≤ c.2 j
  bounds : ∀ b, cfg.bounds = some b → InBox b x0

theorem frozen_velocity {cfg : Config n d K} {x0 : Mat n d K} (hcfg : FreezeCfg cfg x0)
    {sw : Swarm n d K} (hp : sw.position = x0) {r1 r2 v : Mat n d K} {vm : Option (Mat n d K)}
    (h : computeVelocity sw cfg.clamp cfg.vhStrategy (some x0) (velBounds cfg) r1 r2 =
      (vm, .ok v)) : v = (fun _ _ => 0) ∧ vm = some x0 := by
  obtain ⟨c1, c2, w, -, -, -, h⟩ := computeVelocity_ok h
  rw [hcfg.vh, vhCall, if_neg (by decide), if_pos rfl] at h
  unfold vhAdjust at h
  simp only [hp, sub_self] at h
  rw [Prod.mk.injEq, Except.ok.injEq] at h
  refine ⟨?_, h.1.symm⟩
  rw [← h.2]
  cases hc : cfg.clamp with
  | none => rfl
  | some c =>
    funext i j
    have := hcfg.clamp c hc j
    simp only [clampOpt, applyClamp, decide_eq_true_eq]
    split_ifs with h1 h2
    · exact le_antisymm h1 this.2
    · exact le_antisymm this.1 h2
    · rfl

theorem frozen_position {cfg : Config n d K} {x0 : Mat n d K} (hcfg : FreezeCfg cfg x0)
    {sw : Swarm n d K} (hp : sw.position = x0) (hv : sw.velocity = fun _ _ => 0) {r : Draw n d K}
    {mem bm : Option (Mat n d K)} {p : Mat n d K}
    (h : callPosition cfg r mem sw = (bm, .ok p)) : p = x0 := by
  have h' : computePosition sw cfg.bounds cfg.bhStrategy mem r.bh = (bm, .ok p) := by
    unfold callPosition at h
    cases hkk : cfg.kind <;> rw [hkk] at h <;> first | exact h | exact absurd hkk hcfg.kind
  unfold computePosition at h'
  have e : (fun i j => sw.position i j + sw.velocity i j) = x0 := by
    funext i j; rw [hp, hv]; simp
  cases hb : cfg.bounds with
  | none =>
    rw [hb] at h'
    simp only [e] at h'
    cases h'
    rfl
  | some b =>
    rw [hb] at h'
    simp only [e] at h'
    funext i
    exact C15_particle _ _ _ b _ x0 p h' i (hcfg.bounds b hb i)

theorem frozen_iterate {cfg : Config n d K} {x0 v0 : Mat n d K} (hcfg : FreezeCfg cfg x0)
    (ev : Mat n d K → Except Err (Costs n K)) (r : Draw n d K) (iters i : Nat) (q : List Bool)
    (s : Opt n d K) (hs : Frozen x0 v0 s ∧ s.vhMem = some x0) :
    Frozen x0 v0 (iterate cfg ev r iters i q s).1 ∧
      (iterate cfg ev r iters i q s).1.vhMem = some x0 := by
  refine iterate_inv cfg ev r iters i q (fun s => Frozen x0 v0 s ∧ s.vhMem = some x0)
    ?_ ?_ ?_ ?_ s hs
  · rintro s c ⟨⟨h1, h2, h3, h4, h5, h6⟩, h7⟩ -
    refine ⟨⟨h1, ?_, h3, h4, ?_, h6⟩, h7⟩
    · funext i
      rcases recordEval_pbestPos_or c s i with h | h
      · rw [h, h2]
      · rw [h, h1]
    · intro e he
      simp only [recordEval, List.mem_append, List.mem_singleton] at he
      rcases he with he | rfl
      · exact h5 e he
      · exact h1
  · rintro s t ⟨⟨h1, h2, h3, h4, h5, h6⟩, h7⟩; exact ⟨⟨h1, h2, h3, h4, h5, h6⟩, h7⟩
  · rintro s t g ⟨⟨h1, h2, h3, h4, h5, h6⟩, h7⟩
    refine ⟨⟨h1, h2, h3, ?_, h5, ?_⟩, h7⟩
    · intro x hx
      simp only [recordBest, Opt.populateHistory, List.mem_append, List.mem_singleton] at hx
      rcases hx with hx | rfl
      · exact h4 x hx
      · exact h1
    · intro v hv
      simp only [recordBest, Opt.populateHistory, List.mem_append, List.mem_singleton] at hv
      rcases hv with hv | rfl
      · exact h6 v hv
      · exact h3
  · rintro s ⟨⟨h1, h2, h3, h4, h5, h6⟩, h7⟩
    have hcs := moveSwarm_cases cfg r iters i s
    generalize (moveSwarm cfg r iters i s).1 = s' at hcs ⊢
    generalize (moveSwarm cfg r iters i s).2 = o at hcs
    cases hcs with
    | optError e h => exact ⟨⟨h1, h2, h3, h4, h5, h6⟩, h7⟩
    | velError o vm e h hv =>
      refine ⟨⟨h1, h2, h3, h4, h5, h6⟩, ?_⟩
      have := computeVelocity_mem { s.swarm with options := o } cfg.clamp cfg.vhStrategy s.vhMem
        (velBounds cfg) r.r1 r.r2
      rw [hv] at this
      rcases this with h | h
      · exact h.trans h7
      · exact h.trans (by rw [h1])
    | posError o vm v bm e h hv hp =>
      rw [h7] at hv
      obtain ⟨e1, e2⟩ := frozen_velocity hcfg (by exact h1) hv
      exact ⟨⟨h1, h2, Or.inr e1, h4, h5, h6⟩, e2⟩
    | ok o vm v bm p h hv hp =>
      rw [h7] at hv
      obtain ⟨e1, e2⟩ := frozen_velocity hcfg (by exact h1) hv
      have e3 := frozen_position hcfg (by exact h1) e1 hp
      exact ⟨⟨e3, h2, Or.inr e1, h4, h5, h6⟩, e2⟩

theorem frozen_optimize {cfg : Config n d K} {x0 v0 : Mat n d K} (hcfg : FreezeCfg cfg x0)
    (ev : Nat → Mat n d K → Except Err (Costs n K)) (iters : Nat) (nproc : Option Nat)
    (env : Nat → Draw n d K) (s : Opt n d K) (hs : Frozen x0 v0 s) :
    Frozen x0 v0 (optimize cfg ev iters nproc env s).1 := by
  refine optimize_inv2 cfg ev iters nproc env (Frozen x0 v0)
    (fun s => Frozen x0 v0 s ∧ s.vhMem = some x0) ?_
    (fun i q s hs => frozen_iterate hcfg (ev i) (env i) iters i q s hs) ?_ ?_ s hs
  · rintro s ⟨h1, h2, h3, h4, h5, h6⟩
    exact ⟨⟨h1, h2, h3, h4, h5, h6⟩, by rw [← h1]; rfl⟩
  · rintro s x ⟨⟨h1, h2, h3, h4, h5, h6⟩, -⟩; exact ⟨h1, h2, h3, h4, h5, h6⟩
  · rintro s a b ⟨h1, h2, h3, h4, h5, h6⟩; exact ⟨h1, h2, h3, h4, h5, h6⟩

theorem frozen_runOps {cfg : Config n d K} {s : Opt n d K} (hf : Fresh cfg s)
    (hcfg : FreezeCfg cfg s.swarm.position) (ops : List (Op n d K))
    (hops : ∀ op ∈ ops, op.isOptimize) :
    Frozen s.swarm.position s.swarm.velocity (runOps cfg s ops) := by
  obtain ⟨r, sw, t, a, b, p, hsw, rfl⟩ := fresh_cases cfg s hf
  have hpb := (fresh_reachable_init cfg r sw hsw).2.2.2.1
  refine runOps_inv cfg _ Op.isOptimize (fun s op hop hs => ?_) ops hops _
    ⟨rfl, hpb, Or.inl rfl, by simp, by simp, by simp⟩
  cases op with
  | optimize ev iters nproc env => exact frozen_optimize hcfg ev iters nproc env s hs
  | reset r => exact hop.elim

/-- C23: with `vh_strategy='adjust'` (no clamp, or one containing 0; no bounds, or an initial swarm
inside them) a fresh non-binary optimizer never moves, whatever sequence of `optimize` calls is made
and whatever they raise: all recorded and evaluated positions and the personal bests are the initial
positions, and every recorded velocity is the initial one or zero. -/
theorem C23_frozen (cfg : Config n d K) (s : Opt n d K) (hf : Fresh cfg s)
    (hk : cfg.kind ≠ .binary) (hv : cfg.vhStrategy = "adjust")
    (hc : ∀ c, cfg.clamp = some c → ∀ j, c.1 j ≤ 0 ∧ 0 ≤ c.2 j)
    (hb : ∀ b, cfg.bounds = some b → InBox b s.swarm.position) (ops : List (Op n d K))
    (hops : ∀ op ∈ ops, op.isOptimize) :
    let s' := runOps cfg s ops
    s'.swarm.position = s.swarm.position ∧ s'.swarm.pbestPos = s.swarm.position ∧
      (∀ x ∈ s'.posHistory, x = s.swarm.position) ∧ (∀ e ∈ s'.evals, e.1 = s.swarm.position) ∧
      ∀ v ∈ s'.velocityHistory, v = s.swarm.velocity ∨ v = fun _ _ => 0 := by
  have := frozen_runOps hf ⟨hk, hv, hc, hb⟩ ops hops
  exact ⟨this.1, this.2, this.4, this.5, this.6⟩

/-- C23: the returned position is the initial position of some particle. -/
theorem C23_returned (cfg : Config n d K) (s : Opt n d K) (hf : Fresh cfg s)
    (hk : cfg.kind ≠ .binary) (hv : cfg.vhStrategy = "adjust")
    (hc : ∀ c, cfg.clamp = some c → ∀ j, c.1 j ≤ 0 ∧ 0 ≤ c.2 j)
    (hb : ∀ b, cfg.bounds = some b → InBox b s.swarm.position) (ops : List (Op n d K))
    (hops : ∀ op ∈ ops, op.isOptimize) (ev : Nat → Mat n d K → Except Err (Costs n K))
    (iters : Nat) (nproc : Option Nat) (env : Nat → Draw n d K) (s' : Opt n d K) (c : XR K)
    (p : Vec d K) (h : optimize cfg ev iters nproc env (runOps cfg s ops) = (s', .ok (c, p))) :
    ∃ i, p = s.swarm.position i := by
  have h1 := frozen_optimize ⟨hk, hv, hc, hb⟩ ev iters nproc env _
    (frozen_runOps hf ⟨hk, hv, hc, hb⟩ ops hops)
  rw [h] at h1
  obtain ⟨s1, -, rfl, -, k, -, rfl⟩ := optimize_ok cfg ev iters nproc env _ s' c p h
  exact ⟨k, by rw [← h1.pbest]⟩

/-- The velocities appended by a loop of a frozen swarm: the current one, then zeros. -/
theorem frozen_loop_velocities {cfg : Config n d K} {x0 v0 : Mat n d K} (hcfg : FreezeCfg cfg x0)
    (ev : Nat → Mat n d K → Except Err (Costs n K)) (env : Nat → Draw n d K) (iters : Nat)
    (m i : Nat) (q : List Bool) (s s' : Opt n d K) (hs : Frozen x0 v0 s ∧ s.vhMem = some x0)
    (h : loop cfg ev env iters m i q s = (s', .ok ())) (hm : 0 < m) :
    ∃ k, s'.velocityHistory =
      s.velocityHistory ++ s.swarm.velocity :: List.replicate k (fun _ _ => 0) := by
  induction m generalizing i q s with
  | zero => omega
  | succ m ih =>
    have hfr := frozen_iterate hcfg (ev i) (env i) iters i q s hs
    have hcs := iterate_cases cfg (ev i) (env i) iters i q s
    rw [loop] at h
    generalize iterate cfg (ev i) (env i) iters i q s = o at h hfr hcs
    obtain ⟨s1, e | f⟩ := o
    · cases h
    · simp only at hcs hfr
      cases hcs with
      | stop c t g h' hg hi hq => cases h; exact ⟨0, rfl⟩
      | moved c t g _ h' hg hns hmv =>
        have hfm := moveSwarm_frame cfg (env i) iters i (recordBest t g (recordEval c s))
        rw [hmv] at hfm
        simp only at hfm
        have hvh : s1.velocityHistory = s.velocityHistory ++ [s.swarm.velocity] :=
          hfm.2.2.2.2.2.2.2.2.2.2.1
        have hvel : s1.swarm.velocity = fun _ _ => 0 := by
          have hcs := moveSwarm_cases cfg (env i) iters i (recordBest t g (recordEval c s))
          rw [hmv] at hcs
          simp only at hcs
          cases hcs with
          | ok o vm v bm p h2 hv hp =>
            have : (recordBest t g (recordEval c s)).vhMem = some x0 := hs.2
            rw [this] at hv
            exact (frozen_velocity hcfg (by exact hs.1.position) hv).1
        rcases Nat.eq_zero_or_pos m with rfl | hm'
        · simp only [loop] at h
          cases h
          exact ⟨0, hvh⟩
        · obtain ⟨k, hk⟩ := ih _ _ _ hfr h hm'
          refine ⟨k + 1, ?_⟩
          rw [hk, hvh, hvel, List.append_assoc, List.replicate_succ]
          rfl

/-- C23: a first call that returns records the initial velocity, and zeros from then on. -/
theorem C23_velocities (cfg : Config n d K) (s : Opt n d K) (hf : Fresh cfg s)
    (hk : cfg.kind ≠ .binary) (hv : cfg.vhStrategy = "adjust")
    (hc : ∀ c, cfg.clamp = some c → ∀ j, c.1 j ≤ 0 ∧ 0 ≤ c.2 j)
    (hb : ∀ b, cfg.bounds = some b → InBox b s.swarm.position)
    (ev : Nat → Mat n d K → Except Err (Costs n K)) (iters : Nat) (hit : 0 < iters)
    (nproc : Option Nat) (env : Nat → Draw n d K) (s' : Opt n d K) (r : XR K × Vec d K)
    (h : optimize cfg ev iters nproc env s = (s', .ok r)) :
    ∃ k, s'.velocityHistory = s.swarm.velocity :: List.replicate k (fun _ _ => 0) := by
  obtain ⟨s1, hl, rfl, -, -⟩ := optimize_ok cfg ev iters nproc env s s' r.1 r.2 h
  have h0 := frozen_runOps hf ⟨hk, hv, hc, hb⟩ [] (by simp)
  have hst : Frozen s.swarm.position s.swarm.velocity (startState cfg nproc s) ∧
      (startState cfg nproc s).vhMem = some s.swarm.position :=
    ⟨⟨h0.1, h0.2, h0.3, h0.4, h0.5, h0.6⟩, rfl⟩
  obtain ⟨k, hk'⟩ := frozen_loop_velocities ⟨hk, hv, hc, hb⟩ ev env iters iters 0 [] _ _ hst hl hit
  refine ⟨k, ?_⟩
  have : (startState cfg nproc s).velocityHistory = [] := by
    obtain ⟨r, sw, t, a, b, p, hsw, rfl⟩ := fresh_cases cfg s hf
    rfl
  rw [this] at hk'
  exact hk'

/-- Non-vacuity of C23: a bounded and clamped `adjust` run of three iterations that returns. -/
example : (match construct (Ex.ccfg "adjust" "reflective") Ex.cinit Ex.cinit with
    | .ok s => match optimize (Ex.ccfg "adjust" "reflective") (Ex.sphere 2 1) 3 none
        (fun _ => Ex.draw 2 1) s with
      | (s', .ok (c, p)) => decide (s'.posHistory.length = 3 ∧ p = s.swarm.position 1 ∧
          (∀ i j, -4 ≤ s.swarm.position i j ∧ s.swarm.position i j ≤ 4))
      | _ => false
    | _ => false) = true := by decide +kernel

/-! ## C25 -/

/-- The four documented velocity strategies. -/
def vhStrategies : List String := ["unmodified", "adjust", "invert", "zero"]

theorem vhCall_noBounds {strategy : String} (hs : strategy ∈ ["invert", "zero"])
    (mem : Option (Mat n d K)) (c : Option (Clamp d K)) (x v : Mat n d K) (z : Option K) :
    vhCall strategy mem c ⟨some x, some none, z⟩ v = (mem, .error .typeError) := by
  simp only [List.mem_cons, List.not_mem_nil, or_false] at hs
  rcases hs with rfl | rfl
  · rw [vhCall, if_neg (by decide), if_neg (by decide), if_pos rfl, vhInvert]
  · rw [vhCall, if_neg (by decide), if_neg (by decide), if_neg (by decide), if_pos rfl, vhZero]

theorem velBounds_none {cfg : Config n d K} (h : cfg.bounds = none ∨ cfg.kind = .binary) :
    velBounds cfg = none := by
  unfold velBounds
  rcases h with h | h
  · cases cfg.kind <;> simp [h]
  · rw [h]

/-- An update fails if the velocity handler always does. -/
theorem moveSwarm_vh_error {cfg : Config n d K} {r : Draw n d K} {iters i : Nat} {s : Opt n d K}
    (h : ∀ v, ∃ m e, vhCall cfg.vhStrategy s.vhMem cfg.clamp
      { position := some s.swarm.position, bounds := some (velBounds cfg) } v = (m, .error e)) :
    ∃ s' e, moveSwarm cfg r iters i s = (s', .error e) := by
  have hcs := moveSwarm_cases cfg r iters i s
  generalize moveSwarm cfg r iters i s = o at hcs ⊢
  obtain ⟨s', x⟩ := o
  simp only at hcs
  cases hcs with
  | optError e h => exact ⟨_, _, rfl⟩
  | velError o vm e h hv => exact ⟨_, _, rfl⟩
  | posError o vm v bm e h hv hp => exact ⟨_, _, rfl⟩
  | ok o vm v bm p h' hv hp =>
    obtain ⟨c1, c2, w, -, -, -, hv⟩ := computeVelocity_ok hv
    obtain ⟨m, e, he⟩ := h (tempVelocity c1 c2 w r.r1 r.r2 { s.swarm with options := o })
    have hv' : vhCall cfg.vhStrategy s.vhMem cfg.clamp
      { position := some s.swarm.position, bounds := some (velBounds cfg) }
      (tempVelocity c1 c2 w r.r1 r.r2 { s.swarm with options := o }) = (vm, .ok v) := hv
    rw [he] at hv'
    cases hv'

/-- If options and best position are usable, the outcome of the velocity handler call is the
outcome of the update. -/
theorem moveSwarm_vh_exact {cfg : Config n d K} {r : Draw n d K} {iters i : Nat} {s : Opt n d K}
    {o : Opts K} {c1 c2 w : K} {e : Err} (ho : callOptions cfg iters i r s.swarm = .ok o)
    (h1 : o.lookup "c1" = some c1) (h2 : o.lookup "c2" = some c2) (h3 : o.lookup "w" = some w)
    (hb : s.swarm.bestPos ≠ .empty)
    (h : ∀ v, ∃ m, vhCall cfg.vhStrategy s.vhMem cfg.clamp
      { position := some s.swarm.position, bounds := some (velBounds cfg) } v = (m, .error e)) :
    ∃ s', moveSwarm cfg r iters i s = (s', .error e) := by
  unfold moveSwarm
  rw [ho]
  dsimp only
  obtain ⟨m, hm⟩ := h (tempVelocity c1 c2 w r.r1 r.r2 { s.swarm with options := o })
  have hv : computeVelocity { s.swarm with options := o } cfg.clamp cfg.vhStrategy s.vhMem
      (velBounds cfg) r.r1 r.r2 = (m, .error e) := by
    unfold computeVelocity
    simp only [h1, h2, h3]
    exact hm
  rw [hv]
  exact ⟨_, rfl⟩

/-- C25: with `vh_strategy` `invert` or `zero` and no bounds (BinaryPSO never has any) no call with
`iters >= 1` ever returns normally. -/
theorem C25_never_returns (cfg : Config n d K) (hs : cfg.vhStrategy ∈ ["invert", "zero"])
    (hb : cfg.bounds = none ∨ cfg.kind = .binary) (s : Opt n d K) (hr : Reachable cfg s)
    (ev : Nat → Mat n d K → Except Err (Costs n K)) (iters : Nat) (hit : 1 ≤ iters)
    (nproc : Option Nat) (env : Nat → Draw n d K) :
    ∀ v, (optimize cfg ev iters nproc env s).2 ≠ .ok v := by
  apply optimize_first_not_ok cfg (reachable_window hr) ev iters hit nproc env s
  intro c t g _ _
  apply moveSwarm_vh_error
  intro v
  rw [velBounds_none hb]
  exact ⟨_, _, vhCall_noBounds hs _ _ _ _ _⟩

/-- C25: if the first evaluation, the topology (with a usable best position) and the options update
succeed, the exception is a `TypeError`. -/
theorem C25_type_error (cfg : Config n d K) (hs : cfg.vhStrategy ∈ ["invert", "zero"])
    (hb : cfg.bounds = none ∨ cfg.kind = .binary) (s : Opt n d K) (hr : Reachable cfg s)
    (ev : Nat → Mat n d K → Except Err (Costs n K)) (iters : Nat) (hit : 1 ≤ iters)
    (nproc : Option Nat) (hp : nproc ≠ some 0) (env : Nat → Draw n d K) (c : Costs n K)
    (t : TopState n) (g : GBest n d K) (o : Opts K) (c1 c2 w : K)
    (h : ev 0 s.swarm.position = .ok c)
    (hg : callGbest cfg (env 0).oracle s.top (recordEval c (startState cfg nproc s)).swarm =
      (t, .ok g)) (hne : g.1 ≠ .empty)
    (ho : callOptions cfg iters 0 (env 0) s.swarm = .ok o)
    (h1 : o.lookup "c1" = some c1) (h2 : o.lookup "c2" = some c2) (h3 : o.lookup "w" = some w) :
    (optimize cfg ev iters nproc env s).2 = .error .typeError := by
  obtain ⟨s', hm⟩ := moveSwarm_vh_exact (cfg := cfg) (r := env 0) (iters := iters) (i := 0)
    (s := recordBest t g (recordEval c (startState cfg nproc s))) (o := o) (e := .typeError)
    (by exact ho) h1 h2 h3 (by exact hne) (fun v => by
      rw [velBounds_none hb]
      exact ⟨_, vhCall_noBounds hs _ _ _ _ _⟩)
  rw [optimize_first_error cfg (reachable_window hr) ev iters hit nproc hp env s c t g s' _ h hg hm]

/-- Non-vacuity of C25: an unbounded `invert` run; it raises `TypeError`. -/
example : (match construct { Ex.gcfg 2 2 with vhStrategy := "invert" } (Ex.init 2 2) (Ex.init 2 2) with
    | .ok s => match optimize { Ex.gcfg 2 2 with vhStrategy := "invert" } (Ex.sphere 2 2) 3 none
        (fun _ => Ex.draw 2 2) s with
      | (_, .error e) => decide (e = .typeError)
      | _ => false
    | _ => false) = true := by decide +kernel

/-! ## C26 -/

/-- `best_pos` attracts particle `i` to `best i`: one common point, or one row per particle. -/
def Attracts (b : BestPos n d K) (best : Mat n d K) : Prop :=
  b = .perParticle best ∨ ∃ v, b = .single v ∧ ∀ i, best i = v

/-- C26: an iteration that completes (unbounded, unclamped, unmodified velocities) moves every
coordinate by `w*v + c1*r1*(pbest - x) + c2*r2*(best - x)`, and this increment is the new velocity.
`c1, c2, w` are the options in force after the options update of this iteration, `pbest` and `best`
the personal and the attracting best positions after this iteration's evaluation. -/
theorem C26_update (cfg : Config n d K) (hk : cfg.kind ≠ .binary) (hb : cfg.bounds = none)
    (hc : cfg.clamp = none) (hv : cfg.vhStrategy = "unmodified") (hd : 0 < d)
    (ev : Mat n d K → Except Err (Costs n K)) (r : Draw n d K) (iters i : Nat) (q q' : List Bool)
    (s s' : Opt n d K) (h : iterate cfg ev r iters i q s = (s', .ok (.continue q'))) :
    ∃ c1 c2 w best, s'.swarm.options.lookup "c1" = some c1 ∧
      s'.swarm.options.lookup "c2" = some c2 ∧ s'.swarm.options.lookup "w" = some w ∧
      Attracts s'.swarm.bestPos best ∧ ∀ a j,
        s'.swarm.velocity a j = w * s.swarm.velocity a j +
          c1 * r.r1 a j * (s'.swarm.pbestPos a j - s.swarm.position a j) +
          c2 * r.r2 a j * (best a j - s.swarm.position a j) ∧
        s'.swarm.position a j = s.swarm.position a j + s'.swarm.velocity a j := by
  have hcs := iterate_cases cfg ev r iters i q s
  rw [h] at hcs
  simp only at hcs
  cases hcs with
  | moved c t g _ h' hg hns hmv =>
    have hms := moveSwarm_cases cfg r iters i (recordBest t g (recordEval c s))
    rw [hmv] at hms
    simp only at hms
    cases hms with
    | ok o vm v bm p ho hvel hp =>
      obtain ⟨c1, c2, w, h1, h2, h3, hvh⟩ := computeVelocity_ok hvel
      rw [hc, hv, vhCall, if_pos rfl, vhUnmodified, clampOpt] at hvh
      rw [Prod.mk.injEq, Except.ok.injEq] at hvh
      have hpos : p = fun a j => s.swarm.position a j + v a j := by
        unfold callPosition computePosition at hp
        rw [hb] at hp
        cases hkk : cfg.kind <;> rw [hkk] at hp <;> first
          | exact absurd hkk hk
          | (simp only at hp; cases hp; rfl)
      have hne : g.1 ≠ .empty := by
        intro hemp
        unfold computeVelocity at hvel
        simp only [h1, h2, h3] at hvel
        have : (recordBest t g (recordEval c s)).swarm.bestPos = .empty := hemp
        simp only [this] at hvel
        rw [if_neg (by omega), hv] at hvel
        split at hvel
        · rw [if_neg (by decide)] at hvel
          split at hvel <;> cases hvel
        · cases hvel
      refine ⟨c1, c2, w, fun a => g.1.row s.swarm.position a, h1, h2, h3, ?_, fun a j => ⟨?_, ?_⟩⟩
      · show Attracts g.1 _
        obtain ⟨gp, gc⟩ := g
        cases gp with
        | empty => exact absurd rfl hne
        | single v => exact Or.inr ⟨v, rfl, fun _ => rfl⟩
        | perParticle m => exact Or.inl rfl
      · show v a j = _
        rw [← hvh.2]
        rfl
      · show p a j = _
        rw [hpos]

/-- The entries a loop appends to the position and velocity histories of an unbounded optimizer:
each position is the previous one plus the velocity recorded with it. -/
theorem loop_increments (cfg : Config n d K) (hk : cfg.kind ≠ .binary) (hb : cfg.bounds = none)
    (ev : Nat → Mat n d K → Except Err (Costs n K)) (env : Nat → Draw n d K) (iters : Nat)
    (m i : Nat) (q : List Bool) (s : Opt n d K) :
    ∃ E : List (Mat n d K × Mat n d K),
      (loop cfg ev env iters m i q s).1.posHistory = s.posHistory ++ E.map Prod.fst ∧
      (loop cfg ev env iters m i q s).1.velocityHistory = s.velocityHistory ++ E.map Prod.snd ∧
      (∀ e, E.head? = some e → e = (s.swarm.position, s.swarm.velocity)) ∧
      E.IsChain (fun a b => b.1 = fun i j => a.1 i j + b.2 i j) := by
  induction m generalizing i q s with
  | zero => exact ⟨[], by simp [loop], by simp [loop], by simp, by simp⟩
  | succ m ih =>
    have hcs := iterate_cases cfg (ev i) (env i) iters i q s
    rw [loop]
    generalize iterate cfg (ev i) (env i) iters i q s = o at hcs ⊢
    obtain ⟨s1, e | f⟩ := o
    · simp only at hcs ⊢
      cases hcs with
      | evalError e h => exact ⟨[], by simp, by simp, by simp, by simp⟩
      | gbestError c t e h hg => exact ⟨[], by simp [recordEval], by simp [recordEval], by simp, by simp⟩
      | moveError c t g _ e h hg hns hm =>
        have hf := moveSwarm_frame cfg (env i) iters i (recordBest t g (recordEval c s))
        rw [hm] at hf
        simp only at hf
        refine ⟨[(s.swarm.position, s.swarm.velocity)], ?_, ?_, by simp, by simp⟩
        · rw [hf.2.2.2.2.2.2.2.2.2.1]; rfl
        · rw [hf.2.2.2.2.2.2.2.2.2.2.1]; rfl
    · simp only at hcs
      cases hcs with
      | stop c t g h hg hi hq =>
        exact ⟨[(s.swarm.position, s.swarm.velocity)], rfl, rfl, by simp, by simp⟩
      | moved c t g _ h hg hns hm =>
        have hf := moveSwarm_frame cfg (env i) iters i (recordBest t g (recordEval c s))
        have hms := moveSwarm_cases cfg (env i) iters i (recordBest t g (recordEval c s))
        rw [hm] at hf hms
        simp only at hf hms
        have hpos : s1.swarm.position =
            fun a j => s.swarm.position a j + s1.swarm.velocity a j := by
          cases hms with
          | ok o vm v bm p ho hvel hp =>
            show p = fun a j => s.swarm.position a j + v a j
            unfold callPosition computePosition at hp
            rw [hb] at hp
            cases hkk : cfg.kind <;> rw [hkk] at hp <;> first
              | exact absurd hkk hk
              | (simp only at hp; cases hp; rfl)
        obtain ⟨E, h1, h2, h3, h4⟩ := ih (i + 1) _ s1
        refine ⟨(s.swarm.position, s.swarm.velocity) :: E, ?_, ?_, by simp, ?_⟩
        · rw [h1, hf.2.2.2.2.2.2.2.2.2.1]; simp [recordBest, Opt.populateHistory, recordEval]
        · rw [h2, hf.2.2.2.2.2.2.2.2.2.2.1]; simp [recordBest, Opt.populateHistory, recordEval]
        · cases E with
          | nil => simp
          | cons e E =>
            have := h3 e rfl
            subst this
            rw [List.isChain_cons_cons]
            exact ⟨hpos, h4⟩

/-- C26: in an unbounded (non-binary) call, however it ends, the entries appended to `pos_history`
and `velocity_history` satisfy `pos[t+1] = pos[t] + velocity[t+1]`, and the first entries are the
position and velocity the call started from. -/
theorem C26_history (cfg : Config n d K) (hk : cfg.kind ≠ .binary) (hb : cfg.bounds = none)
    (ev : Nat → Mat n d K → Except Err (Costs n K)) (iters : Nat) (nproc : Option Nat)
    (env : Nat → Draw n d K) (s : Opt n d K) :
    ∃ E : List (Mat n d K × Mat n d K),
      (optimize cfg ev iters nproc env s).1.posHistory = s.posHistory ++ E.map Prod.fst ∧
      (optimize cfg ev iters nproc env s).1.velocityHistory =
        s.velocityHistory ++ E.map Prod.snd ∧
      (∀ e, E.head? = some e → e = (s.swarm.position, s.swarm.velocity)) ∧
      E.IsChain (fun a b => b.1 = fun i j => a.1 i j + b.2 i j) := by
  have hl := loop_increments cfg hk hb ev env iters iters 0 [] (startState cfg nproc s)
  have hc := optimize_cases cfg ev iters nproc env s
  generalize (optimize cfg ev iters nproc env s).1 = s' at hc ⊢
  generalize (optimize cfg ev iters nproc env s).2 = o at hc
  cases hc with
  | badPool h => exact ⟨[], by simp, by simp, by simp, by simp⟩
  | loopError s1 e hp h => rw [h] at hl; exact hl
  | finishError s1 e hp h hf => rw [h] at hl; exact hl
  | done r hp s1 h hf => rw [h] at hl; exact hl

theorem ohLoop_lookup_none {strategy : List (String × String)} {start : Opts K} {kw : OHKw K}
    {u : String → K} {l o : Opts K} (h : ohLoop strategy start kw u l = .ok o) :
    o.map Prod.fst = l.map Prod.fst := by
  induction l generalizing o with
  | nil => rw [ohLoop] at h; cases h; rfl
  | cons a l ih =>
    obtain ⟨opt, v⟩ := a
    rw [ohLoop] at h
    split at h
    · split at h
      · cases h
      · next r hr => cases h; simp [ih hr]
    · split at h
      · cases h
      · split at h
        · cases h
        · next r hr => cases h; simp [ih hr]

/-- Lookup of a key succeeds iff the key occurs. -/
theorem lookup_isSome_iff (l : Opts K) (k : String) :
    (l.lookup k).isSome ↔ k ∈ l.map Prod.fst := by
  induction l with
  | nil => simp
  | cons a l ih =>
    obtain ⟨k', v⟩ := a
    rw [List.lookup_cons]
    by_cases h : k = k'
    · simp [h]
    · simp only [beq_eq_false_iff_ne.2 h]
      simp only [ih, List.map_cons, List.mem_cons]
      tauto

/-- The options update keeps the set of keys. -/
theorem callOptions_keys {cfg : Config n d K} {iters i : Nat} {r : Draw n d K} {sw : Swarm n d K}
    {o : Opts K} (hs : sw.options.map Prod.fst = cfg.options.map Prod.fst)
    (h : callOptions cfg iters i r sw = .ok o) : o.map Prod.fst = cfg.options.map Prod.fst := by
  unfold callOptions at h
  have key : ∀ kw, ohCall cfg.ohStrategy cfg.options kw r.oh = .ok o →
      o.map Prod.fst = cfg.options.map Prod.fst := by
    intro kw h
    unfold ohCall at h
    split at h
    · cases h; rfl
    · exact ohLoop_lookup_none h
  split at h
  · cases h; exact hs
  · exact key _ h

theorem reachable_options {cfg : Config n d K} {s : Opt n d K} (h : Reachable cfg s) :
    s.swarm.options.map Prod.fst = cfg.options.map Prod.fst := by
  refine reachable_inv cfg (fun s => s.swarm.options.map Prod.fst = cfg.options.map Prod.fst)
    ?_ ?_ s h
  · intro r sw t a b p hsw
    simp only [(fresh_reachable_init cfg r sw hsw).2.2.2.2]
  · intro ev iters nproc env s hs
    refine optimize_inv cfg ev iters nproc env
      (fun s => s.swarm.options.map Prod.fst = cfg.options.map Prod.fst)
      (fun s _ _ _ h => h) (fun s h => h) ?_ s hs
    intro i q s hs
    refine iterate_inv cfg (ev i) (env i) iters i q
      (fun s => s.swarm.options.map Prod.fst = cfg.options.map Prod.fst)
      (fun s c h _ => h) (fun s t h => h) (fun s t g h => h) ?_ s hs
    intro s hs
    have hcs := moveSwarm_cases cfg (env i) iters i s
    generalize (moveSwarm cfg (env i) iters i s).1 = s' at hcs ⊢
    generalize (moveSwarm cfg (env i) iters i s).2 = o at hcs
    cases hcs with
    | optError e h => exact hs
    | velError o vm e h hv => exact callOptions_keys hs h
    | posError o vm v bm e h hv hp => exact callOptions_keys hs h
    | ok o vm v bm p h hv hp => exact callOptions_keys hs h

/-- C26: if one of `c1`, `c2`, `w` is missing from the options, no call with `iters >= 1` returns. -/
theorem C26_missing_never_returns (cfg : Config n d K) (k : String) (hk : k ∈ ["c1", "c2", "w"])
    (hm : ∀ v, (k, v) ∉ cfg.options) (s : Opt n d K) (hr : Reachable cfg s)
    (ev : Nat → Mat n d K → Except Err (Costs n K)) (iters : Nat) (hit : 1 ≤ iters)
    (nproc : Option Nat) (env : Nat → Draw n d K) :
    ∀ v, (optimize cfg ev iters nproc env s).2 ≠ .ok v := by
  apply optimize_first_not_ok cfg (reachable_window hr) ev iters hit nproc env s
  intro c t g _ _
  have hcs := moveSwarm_cases cfg (env 0) iters 0
    (recordBest t g (recordEval c (startState cfg nproc s)))
  generalize moveSwarm cfg (env 0) iters 0
    (recordBest t g (recordEval c (startState cfg nproc s))) = o at hcs ⊢
  obtain ⟨s', x⟩ := o
  simp only at hcs
  have hopts := reachable_options hr
  cases hcs with
  | optError e h => exact ⟨_, _, rfl⟩
  | velError o vm e h hv => exact ⟨_, _, rfl⟩
  | posError o vm v bm e h hv hp => exact ⟨_, _, rfl⟩
  | ok o vm v bm p h' hv hp =>
    exfalso
    obtain ⟨c1, c2, w, h1, h2, h3, -⟩ := computeVelocity_ok hv
    have hkeys := callOptions_keys (by exact hopts) h'
    have hsome : (List.lookup k o).isSome := by
      simp only [List.mem_cons, List.not_mem_nil, or_false] at hk
      rcases hk with rfl | rfl | rfl
      · simp only at h1; rw [h1]; rfl
      · simp only at h2; rw [h2]; rfl
      · simp only at h3; rw [h3]; rfl
    rw [lookup_isSome_iff, hkeys, List.mem_map] at hsome
    obtain ⟨⟨k', v⟩, hmem, rfl⟩ := hsome
    exact hm v hmem

/-- C26: and the exception is a `KeyError` if the evaluation, topology and options update succeed. -/
theorem C26_missing_key_error (cfg : Config n d K) (k : String) (hk : k ∈ ["c1", "c2", "w"])
    (hm : ∀ v, (k, v) ∉ cfg.options) (s : Opt n d K) (hr : Reachable cfg s)
    (ev : Nat → Mat n d K → Except Err (Costs n K)) (iters : Nat) (hit : 1 ≤ iters)
    (nproc : Option Nat) (hp : nproc ≠ some 0) (env : Nat → Draw n d K) (c : Costs n K)
    (t : TopState n) (g : GBest n d K) (o : Opts K) (h : ev 0 s.swarm.position = .ok c)
    (hg : callGbest cfg (env 0).oracle s.top (recordEval c (startState cfg nproc s)).swarm =
      (t, .ok g))
    (ho : callOptions cfg iters 0 (env 0) s.swarm = .ok o) :
    (optimize cfg ev iters nproc env s).2 = .error .keyError := by
  have hkeys := callOptions_keys (reachable_options hr) ho
  have hnone : o.lookup k = none := by
    rw [← Option.not_isSome_iff_eq_none, lookup_isSome_iff, hkeys, List.mem_map]
    rintro ⟨⟨k', v⟩, hmem, rfl⟩
    exact hm v hmem
  have hmv : ∃ s', moveSwarm cfg (env 0) iters 0
      (recordBest t g (recordEval c (startState cfg nproc s))) = (s', .error .keyError) := by
    unfold moveSwarm
    have ho' : callOptions cfg iters 0 (env 0)
      (recordBest t g (recordEval c (startState cfg nproc s))).swarm = .ok o := ho
    rw [ho']
    dsimp only
    have hv : ∀ (sw : Swarm n d K) mem, computeVelocity { sw with options := o } cfg.clamp
        cfg.vhStrategy mem (velBounds cfg) (env 0).r1 (env 0).r2 = (mem, .error .keyError) := by
      intro sw mem
      unfold computeVelocity
      dsimp only
      split
      · next c1 c2 w h1 h2 h3 =>
        exfalso
        simp only [List.mem_cons, List.not_mem_nil, or_false] at hk
        rcases hk with rfl | rfl | rfl
        · rw [hnone] at h1; cases h1
        · rw [hnone] at h2; cases h2
        · rw [hnone] at h3; cases h3
      · rfl
    rw [hv]
    exact ⟨_, rfl⟩
  obtain ⟨s', hmv⟩ := hmv
  rw [optimize_first_error cfg (reachable_window hr) ev iters hit nproc hp env s c t g s' _ h hg hmv]

/-- Non-vacuity of C26: a run in which iterations complete, and a run without `w`. -/
example : (match construct (Ex.gcfg 2 2) (Ex.init 2 2) (Ex.init 2 2) with
    | .ok s => match iterate (Ex.gcfg 2 2) (Ex.sphere 2 2 0) (Ex.draw 2 2) 3 0 []
        (startState (Ex.gcfg 2 2) none s) with
      | (s', .ok (.continue _)) => decide (s'.swarm.position 1 0 ≠ s.swarm.position 1 0)
      | _ => false
    | _ => false) = true := by decide +kernel

example : (match construct { Ex.gcfg 2 2 with options := [("c1", 1), ("c2", 1)] }
      (Ex.init 2 2) (Ex.init 2 2) with
    | .ok s => match optimize { Ex.gcfg 2 2 with options := [("c1", 1), ("c2", 1)] }
        (Ex.sphere 2 2) 3 none (fun _ => Ex.draw 2 2) s with
      | (_, .error e) => decide (e = .keyError)
      | _ => false
    | _ => false) = true := by decide +kernel

/-! ## C36 -/

theorem ohLoop_random {strategy : List (String × String)} {start : Opts K} {kw : OHKw K}
    (hkw : kw.endOpts = none) {u : String → K} {l : Opts K} {opt : String} {v : K}
    (hm : (opt, v) ∈ l) (hs : strategy.lookup opt = some "random") :
    ∃ e, ohLoop strategy start kw u l = .error e := by
  induction l with
  | nil => cases hm
  | cons a l ih =>
    obtain ⟨opt', v'⟩ := a
    rw [List.mem_cons] at hm
    rw [ohLoop]
    rcases hm with hm | hm
    · cases hm
      rw [hs]
      dsimp only
      have : ∀ (start : Opts K) u, ohStrategy "random" start opt kw u = .error .keyError := by
        intro start u
        rw [ohStrategy, if_neg (by decide), if_neg (by decide), if_pos rfl, ohRandom, hkw]
        split <;> rfl
      rw [this]
      exact ⟨_, rfl⟩
    · obtain ⟨e, he⟩ := ih hm
      split
      · rw [he]; exact ⟨_, rfl⟩
      · split
        · exact ⟨_, rfl⟩
        · rw [he]; exact ⟨_, rfl⟩

/-- When `random` is the only strategy in use, the options update raises `KeyError`. -/
theorem ohLoop_random_only {strategy : List (String × String)} {start : Opts K} {kw : OHKw K}
    (hkw : kw.endOpts = none) {u : String → K} {l : Opts K} {opt : String} {v : K}
    (hm : (opt, v) ∈ l) (hs : strategy.lookup opt = some "random")
    (hall : ∀ o nm, strategy.lookup o = some nm → nm = "random") :
    ohLoop strategy start kw u l = .error .keyError := by
  have hrand : ∀ (start : Opts K) o u, ohStrategy "random" start o kw u = .error .keyError := by
    intro start o u
    rw [ohStrategy, if_neg (by decide), if_neg (by decide), if_pos rfl, ohRandom, hkw]
    split <;> rfl
  induction l with
  | nil => cases hm
  | cons a l ih =>
    obtain ⟨opt', v'⟩ := a
    rw [List.mem_cons] at hm
    rw [ohLoop]
    cases hl : strategy.lookup opt' with
    | some nm =>
      dsimp only
      rw [hall opt' nm hl, hrand]
    | none =>
      rcases hm with hm | hm
      · cases hm; rw [hs] at hl; cases hl
      · dsimp only; rw [ih hm]

theorem callOptions_random {cfg : Config n d K} (hk : cfg.kind ≠ .binary) {opt : String} {v : K}
    (hm : (opt, v) ∈ cfg.options) (hs : cfg.ohStrategy.lookup opt = some "random") (iters i : Nat)
    (r : Draw n d K) (sw : Swarm n d K) : ∃ e, callOptions cfg iters i r sw = .error e := by
  have hne : cfg.ohStrategy.isEmpty = false := by
    cases hc : cfg.ohStrategy with
    | nil => rw [hc] at hs; cases hs
    | cons a l => rfl
  unfold callOptions ohCall
  simp only [hne, Bool.false_eq_true, if_false]
  cases hkk : cfg.kind <;> first
    | exact absurd hkk hk
    | exact ohLoop_random rfl hm hs

/-- C36: if `oh_strategy` maps some present option to `random`, no call with `iters >= 1` returns. -/
theorem C36_never_returns (cfg : Config n d K) (hk : cfg.kind ≠ .binary) (opt : String) (v : K)
    (hm : (opt, v) ∈ cfg.options) (hs : cfg.ohStrategy.lookup opt = some "random") (s : Opt n d K)
    (hr : Reachable cfg s) (ev : Nat → Mat n d K → Except Err (Costs n K)) (iters : Nat)
    (hit : 1 ≤ iters) (nproc : Option Nat) (env : Nat → Draw n d K) :
    ∀ v, (optimize cfg ev iters nproc env s).2 ≠ .ok v := by
  apply optimize_first_not_ok cfg (reachable_window hr) ev iters hit nproc env s
  intro c t g _ _
  obtain ⟨e, he⟩ := callOptions_random hk hm hs iters 0 (env 0)
    (recordBest t g (recordEval c (startState cfg nproc s))).swarm
  unfold moveSwarm
  rw [he]
  exact ⟨_, _, rfl⟩

/-- C36: with `random` as the only strategy the exception is a `KeyError`, raised by the first
options update, if the first evaluation and the topology succeed. -/
theorem C36_key_error (cfg : Config n d K) (hk : cfg.kind ≠ .binary) (opt : String) (v : K)
    (hm : (opt, v) ∈ cfg.options) (hs : cfg.ohStrategy.lookup opt = some "random")
    (hall : ∀ o nm, cfg.ohStrategy.lookup o = some nm → nm = "random") (s : Opt n d K)
    (hr : Reachable cfg s) (ev : Nat → Mat n d K → Except Err (Costs n K)) (iters : Nat)
    (hit : 1 ≤ iters) (nproc : Option Nat) (hp : nproc ≠ some 0) (env : Nat → Draw n d K)
    (c : Costs n K) (t : TopState n) (g : GBest n d K) (h : ev 0 s.swarm.position = .ok c)
    (hg : callGbest cfg (env 0).oracle s.top (recordEval c (startState cfg nproc s)).swarm =
      (t, .ok g)) :
    (optimize cfg ev iters nproc env s).2 = .error .keyError := by
  have hne : cfg.ohStrategy.isEmpty = false := by
    cases hc : cfg.ohStrategy with
    | nil => rw [hc] at hs; cases hs
    | cons a l => rfl
  have ho : ∀ sw, callOptions cfg iters 0 (env 0) sw = .error .keyError := by
    intro sw
    unfold callOptions ohCall
    simp only [hne, Bool.false_eq_true, if_false]
    cases hkk : cfg.kind <;> first
      | exact absurd hkk hk
      | exact ohLoop_random_only rfl hm hs hall
  have hmv : moveSwarm cfg (env 0) iters 0
      (recordBest t g (recordEval c (startState cfg nproc s))) =
      (recordBest t g (recordEval c (startState cfg nproc s)), .error .keyError) := by
    unfold moveSwarm; rw [ho]
  rw [optimize_first_error cfg (reachable_window hr) ev iters hit nproc hp env s c t g _ _ h hg hmv]

/-- Non-vacuity of C36: a run with `oh_strategy={'w': 'random'}`. -/
example : (match construct { Ex.gcfg 2 2 with ohStrategy := [("w", "random")] }
      (Ex.init 2 2) (Ex.init 2 2) with
    | .ok s => match optimize { Ex.gcfg 2 2 with ohStrategy := [("w", "random")] }
        (Ex.sphere 2 2) 3 none (fun _ => Ex.draw 2 2) s with
      | (_, .error e) => decide (e = .keyError)
      | _ => false
    | _ => false) = true := by decide +kernel

/-! ## C53 -/

theorem vhCall_unknown {strategy : String} (hs : strategy ∉ vhStrategies)
    (mem : Option (Mat n d K)) (c : Option (Clamp d K)) (kw : VHKw n d K) (v : Mat n d K) :
    vhCall strategy mem c kw v = (mem, .error .keyError) := by
  simp only [vhStrategies, List.mem_cons, List.not_mem_nil, or_false, not_or] at hs
  obtain ⟨h1, h2, h3, h4⟩ := hs
  rw [vhCall, if_neg h1, if_neg h2, if_neg h3, if_neg h4]

/-- C53: with an unknown `vh_strategy` no call with `iters >= 1` returns; the exception is a
`KeyError` if evaluation, topology and options update succeed. -/
theorem C53_velocity_strategy (cfg : Config n d K) (hs : cfg.vhStrategy ∉ vhStrategies)
    (s : Opt n d K) (hr : Reachable cfg s) (ev : Nat → Mat n d K → Except Err (Costs n K))
    (iters : Nat) (hit : 1 ≤ iters) (nproc : Option Nat) (env : Nat → Draw n d K) :
    (∀ v, (optimize cfg ev iters nproc env s).2 ≠ .ok v) ∧
    ∀ c t g o c1 c2 w, nproc ≠ some 0 → ev 0 s.swarm.position = .ok c →
      callGbest cfg (env 0).oracle s.top (recordEval c (startState cfg nproc s)).swarm =
        (t, .ok g) → g.1 ≠ .empty → callOptions cfg iters 0 (env 0) s.swarm = .ok o →
      o.lookup "c1" = some c1 → o.lookup "c2" = some c2 → o.lookup "w" = some w →
      (optimize cfg ev iters nproc env s).2 = .error .keyError := by
  constructor
  · apply optimize_first_not_ok cfg (reachable_window hr) ev iters hit nproc env s
    intro c t g _ _
    apply moveSwarm_vh_error
    intro v
    exact ⟨_, _, vhCall_unknown hs _ _ _ _⟩
  · intro c t g o c1 c2 w hp h hg hne ho h1 h2 h3
    obtain ⟨s', hm⟩ := moveSwarm_vh_exact (cfg := cfg) (r := env 0) (iters := iters) (i := 0)
      (s := recordBest t g (recordEval c (startState cfg nproc s))) (o := o) (e := .keyError)
      (by exact ho) h1 h2 h3 (by exact hne) (fun v => ⟨_, vhCall_unknown hs _ _ _ _⟩)
    rw [optimize_first_error cfg (reachable_window hr) ev iters hit nproc hp env s c t g s' _ h hg
      hm]

/-- C53: with an unknown `bh_strategy` and bounds no call with `iters >= 1` of a non-binary
optimizer returns; the exception is a `KeyError` if everything before the first position update
succeeds. -/
theorem C53_boundary_strategy (cfg : Config n d K) (hk : cfg.kind ≠ .binary) (b : Bounds d K)
    (hb : cfg.bounds = some b) (hs : cfg.bhStrategy ∉ bhStrategies) (s : Opt n d K)
    (hr : Reachable cfg s) (ev : Nat → Mat n d K → Except Err (Costs n K)) (iters : Nat)
    (hit : 1 ≤ iters) (nproc : Option Nat) (env : Nat → Draw n d K) :
    (∀ v, (optimize cfg ev iters nproc env s).2 ≠ .ok v) ∧
    ∀ c t g o vm v, nproc ≠ some 0 → ev 0 s.swarm.position = .ok c →
      callGbest cfg (env 0).oracle s.top (recordEval c (startState cfg nproc s)).swarm =
        (t, .ok g) → callOptions cfg iters 0 (env 0) s.swarm = .ok o →
      computeVelocity { (recordBest t g (recordEval c (startState cfg nproc s))).swarm with
        options := o } cfg.clamp cfg.vhStrategy (some s.swarm.position) (velBounds cfg)
        (env 0).r1 (env 0).r2 = (vm, .ok v) →
      (optimize cfg ev iters nproc env s).2 = .error .keyError := by
  have hpos : ∀ (sw : Swarm n d K) mem, callPosition cfg (env 0) mem sw =
      (mem, .error .keyError) := by
    intro sw mem
    unfold callPosition computePosition
    rw [hb]
    dsimp only
    rw [C14_unknown_strategy _ hs]
    cases hkk : cfg.kind <;> first
      | exact absurd hkk hk
      | rfl
  constructor
  · apply optimize_first_not_ok cfg (reachable_window hr) ev iters hit nproc env s
    intro c t g _ _
    have hcs := moveSwarm_cases cfg (env 0) iters 0
      (recordBest t g (recordEval c (startState cfg nproc s)))
    generalize moveSwarm cfg (env 0) iters 0
      (recordBest t g (recordEval c (startState cfg nproc s))) = o at hcs ⊢
    obtain ⟨s', x⟩ := o
    simp only at hcs
    cases hcs with
    | optError e h => exact ⟨_, _, rfl⟩
    | velError o vm e h hv => exact ⟨_, _, rfl⟩
    | posError o vm v bm e h hv hp => exact ⟨_, _, rfl⟩
    | ok o vm v bm p h' hv hp => rw [hpos] at hp; cases hp
  · intro c t g o vm v hp h hg ho hv
    have hm : ∃ s', moveSwarm cfg (env 0) iters 0
        (recordBest t g (recordEval c (startState cfg nproc s))) = (s', .error .keyError) := by
      unfold moveSwarm
      have ho' : callOptions cfg iters 0 (env 0)
        (recordBest t g (recordEval c (startState cfg nproc s))).swarm = .ok o := ho
      rw [ho']
      dsimp only
      have hv' : computeVelocity { (recordBest t g (recordEval c (startState cfg nproc s))).swarm
        with options := o } cfg.clamp cfg.vhStrategy
        (recordBest t g (recordEval c (startState cfg nproc s))).vhMem (velBounds cfg)
        (env 0).r1 (env 0).r2 = (vm, .ok v) := hv
      rw [hv']
      dsimp only
      rw [hpos]
      exact ⟨_, rfl⟩
    obtain ⟨s', hm⟩ := hm
    rw [optimize_first_error cfg (reachable_window hr) ev iters hit nproc hp env s c t g s' _ h hg
      hm]

/-- C53: without bounds (and in BinaryPSO) `bh_strategy` is never used: any two names give the same
behaviour, also if they are unknown. -/
theorem C53_boundary_unused (cfg : Config n d K) (hb : cfg.bounds = none ∨ cfg.kind = .binary)
    (name : String) (ev : Nat → Mat n d K → Except Err (Costs n K)) (iters : Nat)
    (nproc : Option Nat) (env : Nat → Draw n d K) (s : Opt n d K) :
    optimize { cfg with bhStrategy := name } ev iters nproc env s =
      optimize cfg ev iters nproc env s := by
  refine optimize_congr { cfg with bhStrategy := name } cfg rfl rfl rfl rfl ?_ ev iters nproc env s
  intro r iters i s
  have hp : ∀ mem sw, callPosition { cfg with bhStrategy := name } r mem sw =
      callPosition cfg r mem sw := by
    intro mem sw
    unfold callPosition computePosition
    rcases hb with hb | hb
    · dsimp only; rw [hb]
    · dsimp only; rw [hb]
  unfold moveSwarm
  have ho : callOptions { cfg with bhStrategy := name } iters i r s.swarm =
    callOptions cfg iters i r s.swarm := rfl
  rw [ho]
  split
  · rfl
  · dsimp only
    have hv : velBounds { cfg with bhStrategy := name } = velBounds cfg := rfl
    rw [hv]
    split
    · rfl
    · rw [hp]

/-- Non-vacuity of C53. -/
example : (match construct (Ex.ccfg "unmodified" "nope") Ex.cinit Ex.cinit with
    | .ok s => match optimize (Ex.ccfg "unmodified" "nope") (Ex.sphere 2 1) 3 none
        (fun _ => Ex.draw 2 1) s with
      | (_, .error e) => decide (e = .keyError)
      | _ => false
    | _ => false) = true := by decide +kernel

example : (match construct (Ex.ccfg "nope" "periodic") Ex.cinit Ex.cinit with
    | .ok s => match optimize (Ex.ccfg "nope" "periodic") (Ex.sphere 2 1) 3 none
        (fun _ => Ex.draw 2 1) s with
      | (_, .error e) => decide (e = .keyError)
      | _ => false
    | _ => false) = true := by decide +kernel

/-! ## C54 -/

/-- C54: whether the constructor accepts `ftol_iter`.  It must be a positive `int`; otherwise
`AssertionError` (numbers) or `TypeError` (values that cannot be compared with 0) is raised – unless
`k` or `p` is missing where they are required, which is noticed before. -/
theorem C54_ftol_iter (cfg : Config n d K) (r1 r2 : InitDraw n d K)
    (hkp : cfg.kind.needsKP = true → cfg.args.k.isSome ∧ cfg.args.p.isSome) :
    (∀ s, construct cfg r1 r2 = .ok s → ∃ z : Int, cfg.ftolIter = .int z ∧ 0 < z) ∧
    ((∃ z : Int, cfg.ftolIter = .int z ∧ z ≤ 0) ∨ (∃ x, cfg.ftolIter = .float x) →
      construct cfg r1 r2 = .error .assertionError) ∧
    (cfg.ftolIter = .other → construct cfg r1 r2 = .error .typeError) ∧
    (construct cfg r1 r2 = .error .assertionError →
      (∃ z : Int, cfg.ftolIter = .int z ∧ z ≤ 0) ∨ ∃ x, cfg.ftolIter = .float x) := by
  have hif : ¬ (cfg.kind.needsKP && (cfg.args.k.isNone || cfg.args.p.isNone)) = true := by
    intro h
    rw [Bool.and_eq_true, Bool.or_eq_true, Option.isNone_iff_eq_none, Option.isNone_iff_eq_none] at h
    obtain ⟨h1, h2 | h2⟩ := h
    · have := (hkp h1).1; rw [h2] at this; cases this
    · have := (hkp h1).2; rw [h2] at this; cases this
  have hrs : ∀ r, resetSwarm cfg r ≠ .error .assertionError := by
    intro r h
    unfold resetSwarm createSwarm generateDiscreteSwarm generateSwarm at h
    dsimp only at h
    split at h
    · next e he =>
      cases h
      split at he
      · split at he <;> first | cases he | (split at he <;> cases he)
      · split at he <;> first | cases he | (split at he <;> cases he)
    · cases h
  unfold construct
  rw [if_neg hif]
  cases hf : cfg.ftolIter with
  | int z =>
    by_cases hz : z > 0
    · simp only [checkFtolIter, hz, if_true]
      refine ⟨fun s _ => ⟨z, rfl, hz⟩, ?_, by simp, ?_⟩
      · rintro (⟨z', h1, h2⟩ | ⟨x, h⟩)
        · cases h1; omega
        · cases h
      · intro h
        exfalso
        split at h
        · next e he => cases h; exact hrs _ he
        · split at h
          · next e he => cases h; exact hrs _ he
          · cases h
    · simp only [checkFtolIter, hz, if_false]
      exact ⟨by simp, by simp, by simp, fun _ => Or.inl ⟨z, rfl, by omega⟩⟩
  | float x => simp [checkFtolIter]
  | other => simp [checkFtolIter]

/-- C54: in every reachable state the stopping window is non-empty. -/
theorem C54_window_positive (cfg : Config n d K) (s : Opt n d K) (h : Reachable cfg s) :
    0 < cfg.window := reachable_window h

example : ∃ s, construct (Ex.gcfg 2 1) (Ex.init 2 1) (Ex.init 2 1) = .ok s := ⟨_, rfl⟩

example : construct { Ex.gcfg 2 1 with ftolIter := .int 0 } (Ex.init 2 1) (Ex.init 2 1) =
    .error .assertionError := rfl

end PySwarms
