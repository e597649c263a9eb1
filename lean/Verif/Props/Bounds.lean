import Verif.Lemmas.Runs
import Verif.Props.Handlers

/-!
# Bounded and clamped runs (C21–C24, C37, C38)
-/

set_option linter.unusedSectionVars false

namespace PySwarms

variable {n d : Nat} {K : Type} [Field K] [LinearOrder K] [IsStrictOrderedRing K] [Transc K]
  [FloorRing K]

/-! ## C37, C38: generators -/

/-- C37: with bounds and `center = 1` every generated coordinate is in `[lb, ub)`. -/
theorem C37_generated_inside (b : Bounds d K) (hb : ProperBounds b) (u : Mat n d K)
    (hu : ∀ i j, Unit01 (u i j)) :
    ∃ p : Mat n d K, generateSwarm (some b) (fun _ => 1) none u = .ok p ∧
      ∀ i j, b.1 j ≤ p i j ∧ p i j < b.2 j := by
  refine ⟨_, rfl, fun i j => ?_⟩
  have hw : 0 < b.2 j - b.1 j := sub_pos.2 (hb j)
  have h1 := mul_nonneg (le_of_lt hw) (hu i j).1
  have h2 := mul_lt_mul_of_pos_left (hu i j).2 hw
  constructor <;> linarith

/-- C37: an explicit `init_pos` is accepted exactly if there are no bounds or it is inside them, it
is then used as is, and otherwise `ValueError` is raised. -/
theorem C37_init_pos (bounds : Option (Bounds d K)) (center : Vec d K) (p : Mat n d K)
    (u : Mat n d K) :
    ((∀ b, bounds = some b → InBox b p) → generateSwarm bounds center (some p) u = .ok p) ∧
    ((∃ b, bounds = some b ∧ ¬ InBox b p) →
      generateSwarm bounds center (some p) u = .error .valueError) := by
  have key : ∀ b : Bounds d K,
      (((List.finRange n).all fun i => (List.finRange d).all fun j => decide (b.1 j ≤ p i j)) &&
       ((List.finRange n).all fun i => (List.finRange d).all fun j => decide (p i j ≤ b.2 j))) = true
      ↔ InBox b p := by
    intro b
    simp only [Bool.and_eq_true, List.all_eq_true, List.mem_finRange, decide_eq_true_eq,
      forall_const]
    exact ⟨fun h i j => ⟨h.1 i j, h.2 i j⟩, fun h => ⟨fun i j => (h i j).1, fun i j => (h i j).2⟩⟩
  constructor
  · intro h
    cases bounds with
    | none => rfl
    | some b => rw [generateSwarm, if_pos ((key b).2 (h b rfl))]
  · rintro ⟨b, rfl, h⟩
    rw [generateSwarm, if_neg (fun h' => h ((key b).1 h'))]

/-- C37: with another `center` the guarantee fails: `center = 4`, bounds `[0,1]`. -/
theorem C37_center_witness : ∃ (b : Bounds 1 ℚ) (c : Vec 1 ℚ) (u p : Mat 1 1 ℚ),
    ProperBounds b ∧ (∀ i j, Unit01 (u i j)) ∧ generateSwarm (some b) c none u = .ok p ∧
      ¬ InBox b p := by
  refine ⟨(![0], ![1]), ![4], ![![1 / 2]], fun _ _ => 4 * (0 + (1 - 0) * (1 / 2)), ?_, ?_, ?_, ?_⟩
  · unfold ProperBounds; decide +kernel
  · unfold Unit01; decide +kernel
  · rw [generateSwarm]
    congr 1
    funext i j
    rw [Fin.fin_one_eq_zero i, Fin.fin_one_eq_zero j]
    simp
  · unfold InBox; decide +kernel

example : ProperBounds Ex.box ∧ ∀ i j, Unit01 ((Ex.init 3 2).pos i j) := by
  unfold ProperBounds Unit01; decide +kernel

example : InBox Ex.box Ex.ms ∧ ¬ InBox Ex.box Ex.xs := by unfold InBox; decide +kernel

/-- C38: generated velocities are in `[lo, hi)`. -/
theorem C38_clamped (c : Clamp d K) (hc : ∀ j, c.1 j < c.2 j) (u : Mat n d K)
    (hu : ∀ i j, Unit01 (u i j)) (i : Fin n) (j : Fin d) :
    c.1 j ≤ generateVelocity (some c) u i j ∧ generateVelocity (some c) u i j < c.2 j := by
  have hw : 0 < c.2 j - c.1 j := sub_pos.2 (hc j)
  have h1 := mul_nonneg (le_of_lt hw) (hu i j).1
  have h2 := mul_lt_mul_of_pos_left (hu i j).2 hw
  unfold generateVelocity
  constructor <;> linarith

/-- C38: without a clamp they are in `[0, 1)`. -/
theorem C38_default (u : Mat n d K) (hu : ∀ i j, Unit01 (u i j)) (i : Fin n) (j : Fin d) :
    0 ≤ generateVelocity none u i j ∧ generateVelocity none u i j < 1 := by
  have := hu i j
  unfold Unit01 at this
  simpa [generateVelocity] using this

/-- C38: a degenerate clamp `lo = hi` gives exactly that velocity. -/
theorem C38_degenerate (c : Clamp d K) (u : Mat n d K) (i : Fin n) (j : Fin d)
    (hc : c.1 j = c.2 j) : generateVelocity (some c) u i j = c.1 j := by
  unfold generateVelocity; simp [hc]

example : ∃ c : Clamp 1 ℚ, (∀ j, c.1 j < c.2 j) ∧ ∀ i j, Unit01 ((Ex.init 2 1).vel i j) :=
  ⟨(fun _ => -1, fun _ => 1), by unfold Unit01; decide +kernel⟩

/-! ## C21 -/

/-- Everything recorded so far is inside the box. -/
structure AllInside (b : Bounds d K) (s : Opt n d K) : Prop where
  position : InBox b s.swarm.position
  pbest : InBox b s.swarm.pbestPos
  evals : ∀ e ∈ s.evals, InBox b e.1
  history : ∀ x ∈ s.posHistory, InBox b x

/-- The invariant of the loop of one `optimize` call. -/
def BoxInv (b : Bounds d K) (s : Opt n d K) : Prop :=
  AllInside b s ∧ ∃ m, s.bhMem = some m ∧ InBox b m

theorem bhCall_inBox {strategy : String} {m : Mat n d K} {mem' : Option (Mat n d K)}
    {b : Bounds d K} (hb : ProperBounds b) (hm : InBox b m) {r : BHDraw d K} (hr : r.Legal)
    {x y : Mat n d K} (h : bhCall strategy (some m) b r x = (mem', .ok y)) : InBox b y := by
  by_cases hs : strategy ∈ bhStrategies
  · by_cases hs' : strategy ∈ ["shrink", "intermediate"]
    · exact (C14_memory strategy hs' m mem' b hb hm r x y h).1
    · refine (C14_memoryless strategy ?_ (some m) mem' b hb r hr x y h).1
      simp only [bhStrategies, List.mem_cons, List.not_mem_nil, or_false, not_or] at hs hs' ⊢
      tauto
  · rw [C14_unknown_strategy strategy hs] at h; cases h

theorem boxInv_iterate {cfg : Config n d K} {b : Bounds d K} (hk : cfg.kind ≠ .binary)
    (hcb : cfg.bounds = some b) (hb : ProperBounds b) (ev : Mat n d K → Except Err (Costs n K))
    {r : Draw n d K} (hr : r.Legal) (iters i : Nat) (q : List Bool) (s : Opt n d K)
    (hs : BoxInv b s) : BoxInv b (iterate cfg ev r iters i q s).1 := by
  refine iterate_inv cfg ev r iters i q (BoxInv b) ?_ ?_ ?_ ?_ s hs
  · rintro s c ⟨⟨h1, h2, h3, h4⟩, h5⟩ -
    refine ⟨⟨h1, fun i j => ?_, ?_, h4⟩, h5⟩
    · rcases recordEval_pbestPos_or c s i with h | h
      · rw [h]; exact h2 i j
      · rw [h]; exact h1 i j
    · intro e he
      simp only [recordEval, List.mem_append, List.mem_singleton] at he
      rcases he with he | rfl
      · exact h3 e he
      · exact h1
  · rintro s t ⟨⟨h1, h2, h3, h4⟩, h5⟩
    exact ⟨⟨h1, h2, h3, h4⟩, h5⟩
  · rintro s t g ⟨⟨h1, h2, h3, h4⟩, h5⟩
    refine ⟨⟨h1, h2, h3, ?_⟩, h5⟩
    intro x hx
    simp only [recordBest, Opt.populateHistory, List.mem_append, List.mem_singleton] at hx
    rcases hx with hx | rfl
    · exact h4 x hx
    · exact h1
  · rintro s ⟨⟨h1, h2, h3, h4⟩, m, h5, h6⟩
    have hc := moveSwarm_cases cfg r iters i s
    generalize (moveSwarm cfg r iters i s).1 = s' at hc ⊢
    generalize (moveSwarm cfg r iters i s).2 = o at hc
    have hpos : ∀ sw : Swarm n d K, callPosition cfg r s.bhMem sw =
        bhCall cfg.bhStrategy (some m) b r.bh (fun i j => sw.position i j + sw.velocity i j) := by
      intro sw
      unfold callPosition computePosition
      rw [hcb, h5]
      cases hkk : cfg.kind <;> first | rfl | exact absurd hkk hk
    cases hc with
    | optError e h => exact ⟨⟨h1, h2, h3, h4⟩, m, h5, h6⟩
    | velError o vm e h hv => exact ⟨⟨h1, h2, h3, h4⟩, m, h5, h6⟩
    | posError o vm v bm e h hv hp =>
      refine ⟨⟨h1, h2, h3, h4⟩, m, ?_, h6⟩
      rw [hpos] at hp
      rcases bhCall_mem cfg.bhStrategy (some m) b r.bh (fun i j => s.swarm.position i j + v i j)
        with h' | ⟨y, h'⟩
      · rw [hp] at h'; exact h'
      · rw [hp] at h'; cases h'
    | ok o vm v bm p h hv hp =>
      rw [hpos] at hp
      have hin := bhCall_inBox hb h6 hr.2.2.1 hp
      refine ⟨⟨hin, h2, h3, h4⟩, ?_⟩
      rcases bhCall_mem cfg.bhStrategy (some m) b r.bh (fun i j => s.swarm.position i j + v i j)
        with h' | ⟨y, h'⟩
      · rw [hp] at h'; exact ⟨m, h', h6⟩
      · rw [hp] at h'; cases h'; exact ⟨p, rfl, hin⟩

theorem boxInv_start {cfg : Config n d K} {b : Bounds d K} (hk : cfg.kind ≠ .binary)
    (nproc : Option Nat) (s : Opt n d K) (hs : AllInside b s) :
    BoxInv b (startState cfg nproc s) := by
  refine ⟨⟨hs.position, hs.pbest, hs.evals, hs.history⟩, s.swarm.position, ?_, hs.position⟩
  unfold startState prepare
  dsimp only
  cases hkk : cfg.kind <;> first | rfl | exact absurd hkk hk

theorem allInside_optimize {cfg : Config n d K} {b : Bounds d K} (hk : cfg.kind ≠ .binary)
    (hcb : cfg.bounds = some b) (hb : ProperBounds b)
    (ev : Nat → Mat n d K → Except Err (Costs n K)) (iters : Nat) (nproc : Option Nat)
    (env : Nat → Draw n d K) (henv : ∀ i, (env i).Legal) (s : Opt n d K) (hs : AllInside b s) :
    AllInside b (optimize cfg ev iters nproc env s).1 := by
  refine optimize_inv2 cfg ev iters nproc env (AllInside b) (BoxInv b)
    (fun s hs => boxInv_start hk nproc s hs)
    (fun i q s hs => boxInv_iterate hk hcb hb (ev i) (henv i) iters i q s hs) ?_ ?_ s hs
  · rintro s c ⟨⟨h1, h2, h3, h4⟩, -⟩; exact ⟨h1, h2, h3, h4⟩
  · rintro s a c ⟨h1, h2, h3, h4⟩; exact ⟨h1, h2, h3, h4⟩

theorem allInside_fresh {cfg : Config n d K} {b : Bounds d K} (hk : cfg.kind ≠ .binary)
    (hcb : cfg.bounds = some b) (hb : ProperBounds b) (r : InitDraw n d K) (hr : r.Legal)
    (hinit : cfg.initPos.isSome ∨ cfg.center = fun _ => 1) (sw : Swarm n d K)
    (h : resetSwarm cfg r = .ok sw) : InBox b sw.position ∧ InBox b sw.pbestPos := by
  have hbin : cfg.isBinary = false := by
    unfold Config.isBinary; cases hkk : cfg.kind <;> first | rfl | exact absurd hkk hk
  have hpb := (fresh_reachable_init cfg r sw h).2.2.2.1
  rw [hpb, and_self]
  unfold resetSwarm createSwarm at h
  simp only [hbin, Bool.false_eq_true, if_false, hcb] at h
  split at h
  · cases h
  · next p hp =>
    cases h
    cases hip : cfg.initPos with
    | some p0 =>
      rw [hip] at hp
      by_cases hin : InBox b p0
      · rw [(C37_init_pos (some b) cfg.center p0 r.pos).1 (by rintro b' ⟨⟩; exact hin)] at hp
        cases hp; exact hin
      · rw [(C37_init_pos (some b) cfg.center p0 r.pos).2 ⟨b, rfl, hin⟩] at hp; cases hp
    | none =>
      rw [hip] at hp hinit
      rcases hinit with h | h
      · cases h
      · rw [h] at hp
        obtain ⟨p', h1, h2⟩ := C37_generated_inside (n := n) b hb r.pos hr.1
        rw [h1] at hp
        cases hp
        exact fun i j => ⟨(h2 i j).1, le_of_lt (h2 i j).2⟩

/-- C21: for an optimizer with proper bounds whose swarms are created inside them (`init_pos` given,
or `center = 1`), after any sequence of API calls – whatever the objective does and whatever the
boundary and velocity strategies are – every evaluated position, every recorded position and the
current positions and personal bests are inside the bounds. -/
theorem C21_all_inside (cfg : Config n d K) (b : Bounds d K) (hk : cfg.kind ≠ .binary)
    (hcb : cfg.bounds = some b) (hb : ProperBounds b)
    (hinit : cfg.initPos.isSome ∨ cfg.center = fun _ => 1) (s : Opt n d K)
    (hs : ReachableLegal cfg s) :
    InBox b s.swarm.position ∧ InBox b s.swarm.pbestPos ∧ (∀ e ∈ s.evals, InBox b e.1) ∧
      ∀ x ∈ s.posHistory, InBox b x := by
  obtain ⟨r1, r2, s0, ops, hr1, hr2, hops, hc, rfl⟩ := hs
  obtain ⟨sw, hsw, rfl⟩ := construct_ok cfg r1 r2 s0 hc
  have h0 := allInside_fresh hk hcb hb r2 hr2 hinit sw hsw
  have := runOps_inv cfg (AllInside b) Op.Legal (fun s op hop hs => by
    cases op with
    | optimize ev iters nproc env =>
      exact allInside_optimize hk hcb hb ev iters nproc env hop s hs
    | reset r =>
      obtain ⟨sw', hsw'⟩ := resetSwarm_ok_indep cfg r2 r sw hsw
      have := allInside_fresh hk hcb hb r hop hinit sw' hsw'
      simp only [stepOp, reset, hsw']
      exact ⟨this.1, this.2, by simp, by simp⟩) ops hops
    { swarm := sw } ⟨h0.1, h0.2, by simp, by simp⟩
  exact ⟨this.position, this.pbest, this.evals, this.history⟩

/-- C21: the same for any fresh optimizer whose initial swarm happens to be inside (any `center`),
over any sequence of `optimize` calls. -/
theorem C21_from_inside (cfg : Config n d K) (b : Bounds d K) (hk : cfg.kind ≠ .binary)
    (hcb : cfg.bounds = some b) (hb : ProperBounds b) (s : Opt n d K) (hf : Fresh cfg s)
    (hin : InBox b s.swarm.position) (ops : List (Op n d K))
    (hops : ∀ op ∈ ops, op.Legal ∧ op.isOptimize) :
    let s' := runOps cfg s ops
    InBox b s'.swarm.position ∧ InBox b s'.swarm.pbestPos ∧ (∀ e ∈ s'.evals, InBox b e.1) ∧
      ∀ x ∈ s'.posHistory, InBox b x := by
  obtain ⟨r, sw, t, a, b', p, hsw, rfl⟩ := fresh_cases cfg s hf
  have hpb := (fresh_reachable_init cfg r sw hsw).2.2.2.1
  have := runOps_inv cfg (AllInside b) (fun op => op.Legal ∧ op.isOptimize) (fun s op hop hs => by
    cases op with
    | optimize ev iters nproc env =>
      exact allInside_optimize hk hcb hb ev iters nproc env hop.1 s hs
    | reset r => exact hop.2.elim) ops hops
    { swarm := sw, top := t, bhMem := a, vhMem := b', openPools := p }
    ⟨hin, by rw [hpb]; exact hin, by simp, by simp⟩
  exact ⟨this.position, this.pbest, this.evals, this.history⟩

/-- C21: the returned position is inside the bounds. -/
theorem C21_returned (cfg : Config n d K) (b : Bounds d K) (hk : cfg.kind ≠ .binary)
    (hcb : cfg.bounds = some b) (hb : ProperBounds b)
    (hinit : cfg.initPos.isSome ∨ cfg.center = fun _ => 1) (s s' : Opt n d K)
    (hs : ReachableLegal cfg s) (ev : Nat → Mat n d K → Except Err (Costs n K)) (iters : Nat)
    (nproc : Option Nat) (env : Nat → Draw n d K) (henv : ∀ i, (env i).Legal) (c : XR K)
    (p : Vec d K) (h : optimize cfg ev iters nproc env s = (s', .ok (c, p))) :
    ∀ j, b.1 j ≤ p j ∧ p j ≤ b.2 j := by
  have h0 := C21_all_inside cfg b hk hcb hb hinit s hs
  have h1 := allInside_optimize hk hcb hb ev iters nproc env henv s ⟨h0.1, h0.2.1, h0.2.2.1, h0.2.2.2⟩
  rw [h] at h1
  have hc := optimize_cases cfg ev iters nproc env s
  rw [h] at hc
  simp only at hc
  cases hc with
  | done s1 r hp hl hf =>
    unfold finish at hf
    split at hf
    · cases hf
    · split at hf
      · cases hf
      · next i hi => cases hf; exact fun j => h1.pbest i j

/-- C21: the same if the initial swarm happens to be inside (any `center`), after any calls of
`optimize`. -/
theorem C21_from_inside_returned (cfg : Config n d K) (b : Bounds d K) (hk : cfg.kind ≠ .binary)
    (hcb : cfg.bounds = some b) (hb : ProperBounds b) (s s' : Opt n d K) (hf : Fresh cfg s)
    (hin : InBox b s.swarm.position) (ops : List (Op n d K))
    (hops : ∀ op ∈ ops, op.Legal ∧ op.isOptimize)
    (ev : Nat → Mat n d K → Except Err (Costs n K)) (iters : Nat)
    (nproc : Option Nat) (env : Nat → Draw n d K) (henv : ∀ i, (env i).Legal) (c : XR K)
    (p : Vec d K) (h : optimize cfg ev iters nproc env (runOps cfg s ops) = (s', .ok (c, p))) :
    ∀ j, b.1 j ≤ p j ∧ p j ≤ b.2 j := by
  have h0 := C21_from_inside cfg b hk hcb hb s hf hin ops hops
  have h1 := allInside_optimize hk hcb hb ev iters nproc env henv (runOps cfg s ops)
    ⟨h0.1, h0.2.1, h0.2.2.1, h0.2.2.2⟩
  rw [h] at h1
  have hc := optimize_cases cfg ev iters nproc env (runOps cfg s ops)
  rw [h] at hc
  simp only at hc
  cases hc with
  | done s1 r hp hl hf =>
    unfold finish at hf
    split at hf
    · cases hf
    · split at hf
      · cases hf
      · next i hi => cases hf; exact fun j => h1.pbest i j

/-! ## C24, second half -/

/-- C24: in a bounded run whose swarm starts inside the bounds, `vh_strategy='invert'` gives exactly
the run of `vh_strategy='unmodified'`. -/
theorem C24_optimize (cfg : Config n d K) (b : Bounds d K) (hk : cfg.kind ≠ .binary)
    (hcb : cfg.bounds = some b) (hb : ProperBounds b)
    (hinit : cfg.initPos.isSome ∨ cfg.center = fun _ => 1) (s : Opt n d K)
    (hs : ReachableLegal cfg s) (ev : Nat → Mat n d K → Except Err (Costs n K)) (iters : Nat)
    (nproc : Option Nat) (env : Nat → Draw n d K) (henv : ∀ i, (env i).Legal) :
    optimize { cfg with vhStrategy := "invert" } ev iters nproc env s =
      optimize { cfg with vhStrategy := "unmodified" } ev iters nproc env s := by
  have h0 := C21_all_inside cfg b hk hcb hb hinit s hs
  have hA : AllInside b s := ⟨h0.1, h0.2.1, h0.2.2.1, h0.2.2.2⟩
  have hl : loop { cfg with vhStrategy := "invert" } ev env iters iters 0 []
      (startState { cfg with vhStrategy := "invert" } nproc s) =
      loop { cfg with vhStrategy := "unmodified" } ev env iters iters 0 []
        (startState { cfg with vhStrategy := "invert" } nproc s) := by
    refine loop_congr _ _ ev env iters (BoxInv b)
      (fun i q s hs => boxInv_iterate (cfg := { cfg with vhStrategy := "invert" }) hk hcb hb (ev i)
        (henv i) iters i q s hs) ?_ _ _ _ _
      (boxInv_start (cfg := { cfg with vhStrategy := "invert" }) hk nproc s hA)
    intro i q s hs
    have hmv : ∀ s : Opt n d K, InBox b s.swarm.position →
        moveSwarm { cfg with vhStrategy := "invert" } (env i) iters i s =
        moveSwarm { cfg with vhStrategy := "unmodified" } (env i) iters i s := by
      intro s hin
      have hvb : velBounds { cfg with vhStrategy := "invert" } = some b := by
        unfold velBounds
        dsimp only
        cases hkk : cfg.kind <;> first | exact hcb | exact absurd hkk hk
      have hvb' : velBounds { cfg with vhStrategy := "unmodified" } = some b := hvb
      have hco : callOptions { cfg with vhStrategy := "invert" } iters i (env i) s.swarm =
        callOptions { cfg with vhStrategy := "unmodified" } iters i (env i) s.swarm := rfl
      have hcv : ∀ o, computeVelocity { s.swarm with options := o } cfg.clamp "invert" s.vhMem
          (some b) (env i).r1 (env i).r2 = computeVelocity { s.swarm with options := o } cfg.clamp
          "unmodified" s.vhMem (some b) (env i).r1 (env i).r2 := by
        intro o
        unfold computeVelocity
        have hvh : ∀ v, vhCall "invert" s.vhMem cfg.clamp
            { position := some s.swarm.position, bounds := some (some b) } v =
            vhCall "unmodified" s.vhMem cfg.clamp
            { position := some s.swarm.position, bounds := some (some b) } v := fun v =>
          C24_inside s.vhMem cfg.clamp s.swarm.position b hin none v
        simp only [hvh]
        rfl
      have hcp : ∀ m sw, callPosition { cfg with vhStrategy := "invert" } (env i) m sw =
        callPosition { cfg with vhStrategy := "unmodified" } (env i) m sw := fun _ _ => rfl
      unfold moveSwarm
      rw [hco, hvb, hvb']
      split
      · rfl
      · dsimp only
        rw [hcv]
        rfl
    unfold iterate
    split
    · rfl
    · next c hc =>
      dsimp only
      have hg : callGbest { cfg with vhStrategy := "invert" } (env i).oracle (recordEval c s).top
        (recordEval c s).swarm = callGbest { cfg with vhStrategy := "unmodified" } (env i).oracle
          (recordEval c s).top (recordEval c s).swarm := rfl
      rw [hg]
      split
      · rfl
      · next t g hgg =>
        rw [hmv (recordBest t g (recordEval c s)) hs.1.position]
        rfl
  have hst : startState { cfg with vhStrategy := "invert" } nproc s =
    startState { cfg with vhStrategy := "unmodified" } nproc s := rfl
  have hpr : prepare { cfg with vhStrategy := "invert" } s =
    prepare { cfg with vhStrategy := "unmodified" } s := rfl
  unfold startState at hl
  unfold optimize
  rw [hpr] at hl ⊢
  dsimp only at hl ⊢
  rw [hl]

/-! ## C22 -/

/-- Every coordinate is within the clamp. -/
def Within (c : Clamp d K) (v : Mat n d K) : Prop := ∀ i j, c.1 j ≤ v i j ∧ v i j ≤ c.2 j

theorem applyClamp_within (c : Clamp d K) (hc : ∀ j, c.1 j ≤ c.2 j) (v : Mat n d K) :
    Within c (applyClamp c v) := by
  intro i j
  unfold applyClamp
  simp only [decide_eq_true_eq]
  split_ifs with h1 h2
  · exact ⟨hc j, le_refl _⟩
  · exact ⟨le_refl _, hc j⟩
  · exact ⟨le_of_lt (not_le.1 h2), le_of_lt (not_le.1 h1)⟩

theorem vhCall_within {strategy : String} (hst : strategy ≠ "zero") {m : Mat n d K} {c : Clamp d K}
    (hc : ∀ j, c.1 j ≤ c.2 j) {kw : VHKw n d K} {v v' : Mat n d K} {mem' : Option (Mat n d K)}
    (h : vhCall strategy (some m) (some c) kw v = (mem', .ok v')) : Within c v' := by
  unfold vhCall at h
  split at h
  · cases h; exact applyClamp_within c hc v
  · split at h
    · unfold vhAdjust at h
      split at h
      · cases h
      · cases h; exact applyClamp_within c hc _
    · split at h
      · unfold vhInvert at h
        dsimp only at h
        split at h <;> cases h
        exact applyClamp_within c hc _
      · cases h

/-- The clamp invariant. -/
structure ClampInv (c : Clamp d K) (s : Opt n d K) : Prop where
  velocity : Within c s.swarm.velocity
  history : ∀ v ∈ s.velocityHistory, Within c v

theorem clampInv_iterate {cfg : Config n d K} {c : Clamp d K} (hcc : cfg.clamp = some c)
    (hc : ∀ j, c.1 j ≤ c.2 j) (hst : cfg.vhStrategy ≠ "zero")
    (ev : Mat n d K → Except Err (Costs n K)) (r : Draw n d K) (iters i : Nat) (q : List Bool)
    (s : Opt n d K) (hs : ClampInv c s ∧ s.vhMem.isSome) :
    ClampInv c (iterate cfg ev r iters i q s).1 ∧ (iterate cfg ev r iters i q s).1.vhMem.isSome := by
  refine iterate_inv cfg ev r iters i q (fun s => ClampInv c s ∧ s.vhMem.isSome) ?_ ?_ ?_ ?_ s hs
  · rintro s c ⟨⟨h1, h2⟩, h3⟩ -; exact ⟨⟨h1, h2⟩, h3⟩
  · rintro s t ⟨⟨h1, h2⟩, h3⟩; exact ⟨⟨h1, h2⟩, h3⟩
  · rintro s t g ⟨⟨h1, h2⟩, h3⟩
    refine ⟨⟨h1, fun v hv => ?_⟩, h3⟩
    simp only [recordBest, Opt.populateHistory, List.mem_append, List.mem_singleton] at hv
    rcases hv with hv | rfl
    · exact h2 v hv
    · exact h1
  · rintro s ⟨⟨h1, h2⟩, h3⟩
    obtain ⟨m, hm⟩ := Option.isSome_iff_exists.1 h3
    have hcs := moveSwarm_cases cfg r iters i s
    generalize (moveSwarm cfg r iters i s).1 = s' at hcs ⊢
    generalize (moveSwarm cfg r iters i s).2 = o at hcs
    have hmem : ∀ (o : Opts K) vm (x : Except Err (Mat n d K)), computeVelocity { s.swarm with options := o } cfg.clamp
        cfg.vhStrategy s.vhMem (velBounds cfg) r.r1 r.r2 = (vm, x) → vm.isSome := by
      intro o vm x h
      have := computeVelocity_mem { s.swarm with options := o } cfg.clamp cfg.vhStrategy s.vhMem
        (velBounds cfg) r.r1 r.r2
      rw [h] at this
      rcases this with h | h
      · simp only at h; rw [h]; exact h3
      · simp only at h; rw [h]; rfl
    have hvel : ∀ (o : Opts K) vm v, computeVelocity { s.swarm with options := o } cfg.clamp
        cfg.vhStrategy s.vhMem (velBounds cfg) r.r1 r.r2 = (vm, .ok v) → Within c v := by
      intro o vm v h
      obtain ⟨_, _, _, _, _, _, h⟩ := computeVelocity_ok h
      rw [hcc, hm] at h
      exact vhCall_within hst hc h
    cases hcs with
    | optError e h => exact ⟨⟨h1, h2⟩, h3⟩
    | velError o vm e h hv => exact ⟨⟨h1, h2⟩, hmem o vm _ hv⟩
    | posError o vm v bm e h hv hp => exact ⟨⟨hvel o vm v hv, h2⟩, hmem o vm _ hv⟩
    | ok o vm v bm p h hv hp => exact ⟨⟨hvel o vm v hv, h2⟩, hmem o vm _ hv⟩

theorem clampInv_fresh {cfg : Config n d K} {c : Clamp d K} (hcc : cfg.clamp = some c)
    (hc : ∀ j, c.1 j ≤ c.2 j) (r : InitDraw n d K) (hr : r.Legal) (sw : Swarm n d K)
    (h : resetSwarm cfg r = .ok sw) : Within c sw.velocity := by
  unfold resetSwarm createSwarm at h
  dsimp only at h
  split at h
  · cases h
  · cases h
    intro i j
    simp only [mkSwarm, hcc]
    have hw : 0 ≤ c.2 j - c.1 j := sub_nonneg.2 (hc j)
    have h1 := mul_nonneg hw (hr.2 i j).1
    have h2 := mul_le_mul_of_nonneg_left (le_of_lt (hr.2 i j).2) hw
    unfold generateVelocity
    constructor <;> linarith

/-- C22: with `velocity_clamp=(lo, hi)`, `lo <= hi`, and any strategy but `zero`, the current
velocities and every entry of `velocity_history` are within the clamp, after any sequence of API
calls. -/
theorem C22_clamp (cfg : Config n d K) (c : Clamp d K) (hcc : cfg.clamp = some c)
    (hc : ∀ j, c.1 j ≤ c.2 j) (hst : cfg.vhStrategy ≠ "zero") (s : Opt n d K)
    (hs : ReachableLegal cfg s) :
    (∀ i j, c.1 j ≤ s.swarm.velocity i j ∧ s.swarm.velocity i j ≤ c.2 j) ∧
      ∀ v ∈ s.velocityHistory, ∀ i j, c.1 j ≤ v i j ∧ v i j ≤ c.2 j := by
  obtain ⟨r1, r2, s0, ops, hr1, hr2, hops, hcn, rfl⟩ := hs
  obtain ⟨sw, hsw, rfl⟩ := construct_ok cfg r1 r2 s0 hcn
  have h0 := clampInv_fresh hcc hc r2 hr2 sw hsw
  have := runOps_inv cfg (ClampInv c) Op.Legal (fun s op hop hs => by
    cases op with
    | optimize ev iters nproc env =>
      refine optimize_inv2 cfg ev iters nproc env (ClampInv c)
        (fun s => ClampInv c s ∧ s.vhMem.isSome) ?_ ?_ ?_ ?_ s hs
      · rintro s ⟨h1, h2⟩; exact ⟨⟨h1, h2⟩, rfl⟩
      · intro i q s hs; exact clampInv_iterate hcc hc hst (ev i) (env i) iters i q s hs
      · rintro s x ⟨⟨h1, h2⟩, -⟩; exact ⟨h1, h2⟩
      · rintro s a b ⟨h1, h2⟩; exact ⟨h1, h2⟩
    | reset r =>
      obtain ⟨sw', hsw'⟩ := resetSwarm_ok_indep cfg r2 r sw hsw
      have := clampInv_fresh hcc hc r hop sw' hsw'
      simp only [stepOp, reset, hsw']
      exact ⟨this, by simp⟩) ops hops
    { swarm := sw } ⟨h0, by simp⟩
  exact ⟨this.velocity, this.history⟩

namespace Ex

/-- A bounded, clamped configuration with the given velocity strategy. -/
def ccfg (vh bh : String) : Config 2 1 ℚ where
  kind := .globalBest
  options := [("c1", 2), ("c2", 2), ("w", 1)]
  center := fun _ => 1
  bounds := some (fun _ => -4, fun _ => 4)
  clamp := some (fun _ => -1 / 8, fun _ => 1 / 8)
  vhStrategy := vh
  bhStrategy := bh

/-- `-4` and `0` are the initial positions. -/
def cinit : InitDraw 2 1 ℚ := { init 2 1 with pos := fun i _ => ((i : Nat) : ℚ) / 2 }

end Ex

/-- C22: with `zero` the clamp is ignored: a run that records a velocity outside the clamp. -/
theorem C22_zero_witness : ∃ (cfg : Config 2 1 ℚ) (c : Clamp 1 ℚ) (s : Opt 2 1 ℚ),
    cfg.clamp = some c ∧ (∀ j, c.1 j ≤ c.2 j) ∧ cfg.vhStrategy = "zero" ∧ ReachableLegal cfg s ∧
      ∃ v ∈ s.velocityHistory, ¬ ∀ i j, c.1 j ≤ v i j ∧ v i j ≤ c.2 j := by
  have h : (match construct (Ex.ccfg "zero" "nearest") Ex.cinit Ex.cinit with
    | .ok s => decide (∃ v ∈ (runOps (Ex.ccfg "zero" "nearest") s
        [.optimize (Ex.sphere 2 1) 2 none fun _ => Ex.draw 2 1]).velocityHistory,
          ¬ ∀ i j, (-1 / 8 : ℚ) ≤ v i j ∧ v i j ≤ 1 / 8)
    | _ => false) = true := by decide +kernel
  split at h
  · next s hs =>
    refine ⟨Ex.ccfg "zero" "nearest", (fun _ => -1 / 8, fun _ => 1 / 8),
      runOps (Ex.ccfg "zero" "nearest") s
        [.optimize (Ex.sphere 2 1) 2 none fun _ => Ex.draw 2 1], rfl, ?_, rfl,
      ⟨Ex.cinit, Ex.cinit, s, _, ?_, ?_, ?_, hs, rfl⟩, of_decide_eq_true h⟩
    · decide +kernel
    · unfold InitDraw.Legal Unit01; decide +kernel
    · unfold InitDraw.Legal Unit01; decide +kernel
    · intro op hop
      rw [List.mem_singleton] at hop
      subst hop
      intro i
      exact Ex.draw_legal 2 1
  · cases h

/-- Non-vacuity of C21, C22, C24: a bounded and clamped run of four iterations that moves. -/
example : ∀ bh ∈ bhStrategies, (match construct (Ex.ccfg "invert" bh) Ex.cinit Ex.cinit with
    | .ok s => match optimize (Ex.ccfg "invert" bh) (Ex.sphere 2 1) 4 none
        (fun _ => Ex.draw 2 1) s with
      | (s', .ok (c, p)) => decide (s'.posHistory.length = 4 ∧ s'.swarm.position 0 0 ≠ -4)
      | _ => false
    | _ => false) = true := by decide +kernel

end PySwarms
