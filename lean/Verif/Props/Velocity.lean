import Verif.Props.Bounds

/-! # C69: what the velocity strategies compute -/

set_option linter.unusedSectionVars false

namespace PySwarms

variable {n d : Nat} {K : Type} [Field K] [LinearOrder K] [IsStrictOrderedRing K]

/-- **C69** (`unmodified`).  Without a clamp the velocity is returned as it is; with a clamp
`lo <= hi` every component is the nearest value in `[lo, hi]`.  The handler remembers nothing. -/
theorem C69_unmodified (mem : Option (Mat n d K)) (kw : VHKw n d K) (v : Mat n d K) :
    vhCall "unmodified" mem none kw v = (mem, .ok v) ∧
    ∀ c : Clamp d K, (∀ j, c.1 j ≤ c.2 j) →
      vhCall "unmodified" mem (some c) kw v = (mem, .ok fun i j => max (c.1 j) (min (c.2 j) (v i j))) := by
  refine ⟨rfl, fun c hc => ?_⟩
  rw [vhCall, if_pos rfl]
  refine congrArg _ (congrArg _ ?_)
  funext i j
  have := hc j
  simp only [vhUnmodified, clampOpt, applyClamp, decide_eq_true_eq, ge_iff_le]
  split_ifs with h1 h2
  · rw [min_eq_left h1, max_eq_right this]
  · rw [min_eq_right (le_trans h2 this), max_eq_left h2]
  · push Not at h1 h2
    rw [min_eq_right h1.le, max_eq_right h2.le]

/-- **C69** (`adjust`).  Whatever was remembered before: after a call with position `p`, the next
call with position `q` returns `q - p` – clamped to `[lo, hi]` if there is a clamp – and ignores the
velocity it is given. -/
theorem C69_adjust (mem : Option (Mat n d K)) (c c' : Option (Clamp d K))
    (b b' : Option (Option (Bounds d K))) (z z' : Option K) (p q v w : Mat n d K) :
    let mem' := (vhCall "adjust" mem c ⟨some p, b, z⟩ v).1
    (c' = none → vhCall "adjust" mem' c' ⟨some q, b', z'⟩ w =
      (some q, .ok fun i j => q i j - p i j)) ∧
    ∀ cl : Clamp d K, c' = some cl → (∀ j, cl.1 j ≤ cl.2 j) →
      vhCall "adjust" mem' c' ⟨some q, b', z'⟩ w =
        (some q, .ok fun i j => max (cl.1 j) (min (cl.2 j) (q i j - p i j))) := by
  have hm : (vhCall "adjust" mem c ⟨some p, b, z⟩ v).1 = some p := by
    rw [vhCall, if_neg (by decide), if_pos rfl]
    unfold vhAdjust
    cases mem <;> rfl
  intro mem'
  have hm' : mem' = some p := hm
  rw [hm', vhCall, if_neg (by decide), if_pos rfl]
  refine ⟨?_, ?_⟩
  · rintro rfl; rfl
  · rintro cl rfl hc
    have := (C69_unmodified (none : Option (Mat n d K)) ⟨some q, b', z'⟩
      (fun i j => q i j - p i j)).2 cl hc
    rw [vhCall, if_pos rfl] at this
    simp only [Prod.mk.injEq, Except.ok.injEq, true_and] at this
    unfold vhAdjust
    simp only
    rw [← this]
    rfl

/-- **C69** (`adjust`, first call).  With nothing remembered the velocity is returned unchanged –
not even clamped. -/
theorem C69_adjust_first (c : Option (Clamp d K)) (b : Option (Option (Bounds d K))) (z : Option K)
    (p v : Mat n d K) : vhCall "adjust" none c ⟨some p, b, z⟩ v = (some p, .ok v) := rfl

/-- **C69** (`zero`).  The velocity of a particle with a coordinate outside the bounds becomes zero
in every dimension, the others are returned unchanged; the clamp is ignored. -/
theorem C69_zero (mem : Option (Mat n d K)) (c : Option (Clamp d K)) (p : Mat n d K)
    (b : Bounds d K) (z : Option K) (v : Mat n d K) :
    ∃ y, vhCall "zero" mem c ⟨some p, some (some b), z⟩ v = (mem, .ok y) ∧
      ∀ i, ((Below b p i ∨ Above b p i) → ∀ j, y i j = 0) ∧
        (¬ Below b p i → ¬ Above b p i → ∀ j, y i j = v i j) := by
  refine ⟨_, by rw [vhCall, if_neg (by decide), if_neg (by decide), if_neg (by decide), if_pos rfl,
    vhZero], fun i => ?_⟩
  have hl := rowLow_iff b p i
  have hh := rowHigh_iff b p i
  refine ⟨fun h j => ?_, fun h1 h2 j => ?_⟩
  · by_cases h2 : Above b p i
    · rw [if_pos (hh.2 h2)]
    · rw [if_neg (fun h => h2 (hh.1 h))]
      exact if_pos (hl.2 (h.resolve_right h2))
  · rw [if_neg (fun h => h2 (hh.1 h))]
    exact if_neg (fun h => h1 (hl.1 h))

/-- **C69** (`zero`).  With all particles inside the bounds `zero` is `unmodified` without a clamp. -/
theorem C69_zero_inside (mem : Option (Mat n d K)) (c : Option (Clamp d K)) (p : Mat n d K)
    (b : Bounds d K) (hp : InBox b p) (v : Mat n d K) :
    vhCall "zero" mem c { position := some p, bounds := some (some b) } v =
      vhCall "unmodified" mem none { position := some p, bounds := some (some b) } v := by
  obtain ⟨y, h1, h2⟩ := C69_zero mem c p b none v
  rw [h1, (C69_unmodified mem _ v).1]
  have : y = v := by
    funext i j
    refine (h2 i).2 ?_ ?_ j
    · rintro ⟨j, h⟩; exact absurd h (not_lt.2 (hp i j).1)
    · rintro ⟨j, h⟩; exact absurd h (not_lt.2 (hp i j).2)
  rw [this]

variable [Transc K] [FloorRing K]

/-- **C69** (`zero` in a run).  In a bounded run whose swarm starts inside the bounds,
`vh_strategy='zero'` gives exactly the run of `vh_strategy='unmodified'` without a clamp. -/
theorem C69_zero_optimize (cfg : Config n d K) (b : Bounds d K) (hk : cfg.kind ≠ .binary)
    (hcb : cfg.bounds = some b) (hb : ProperBounds b)
    (hinit : cfg.initPos.isSome ∨ cfg.center = fun _ => 1) (s : Opt n d K)
    (hs : ReachableLegal cfg s) (ev : Nat → Mat n d K → Except Err (Costs n K)) (iters : Nat)
    (nproc : Option Nat) (env : Nat → Draw n d K) (henv : ∀ i, (env i).Legal) :
    optimize { cfg with vhStrategy := "zero" } ev iters nproc env s =
      optimize { cfg with vhStrategy := "unmodified", clamp := none } ev iters nproc env s := by
  have h0 := C21_all_inside cfg b hk hcb hb hinit s hs
  have hA : AllInside b s := ⟨h0.1, h0.2.1, h0.2.2.1, h0.2.2.2⟩
  have hl : loop { cfg with vhStrategy := "zero" } ev env iters iters 0 []
      (startState { cfg with vhStrategy := "zero" } nproc s) =
      loop { cfg with vhStrategy := "unmodified", clamp := none } ev env iters iters 0 []
        (startState { cfg with vhStrategy := "zero" } nproc s) := by
    refine loop_congr _ _ ev env iters (BoxInv b)
      (fun i q s hs => boxInv_iterate (cfg := { cfg with vhStrategy := "zero" }) hk hcb hb (ev i)
        (henv i) iters i q s hs) ?_ _ _ _ _
      (boxInv_start (cfg := { cfg with vhStrategy := "zero" }) hk nproc s hA)
    intro i q s hs
    have hmv : ∀ s : Opt n d K, InBox b s.swarm.position →
        moveSwarm { cfg with vhStrategy := "zero" } (env i) iters i s =
        moveSwarm { cfg with vhStrategy := "unmodified", clamp := none } (env i) iters i s := by
      intro s hin
      have hvb : velBounds { cfg with vhStrategy := "zero" } = some b := by
        unfold velBounds
        dsimp only
        cases hkk : cfg.kind <;> first | exact hcb | exact absurd hkk hk
      have hvb' : velBounds { cfg with vhStrategy := "unmodified", clamp := none } = some b := hvb
      have hco : callOptions { cfg with vhStrategy := "zero" } iters i (env i) s.swarm =
        callOptions { cfg with vhStrategy := "unmodified", clamp := none } iters i (env i) s.swarm := rfl
      have hcv : ∀ o, computeVelocity { s.swarm with options := o } cfg.clamp "zero" s.vhMem
          (some b) (env i).r1 (env i).r2 = computeVelocity { s.swarm with options := o } none
          "unmodified" s.vhMem (some b) (env i).r1 (env i).r2 := by
        intro o
        unfold computeVelocity
        have hvh : ∀ v, vhCall "zero" s.vhMem cfg.clamp
            { position := some s.swarm.position, bounds := some (some b) } v =
            vhCall "unmodified" s.vhMem none
            { position := some s.swarm.position, bounds := some (some b) } v := fun v =>
          C69_zero_inside s.vhMem cfg.clamp s.swarm.position b hin v
        simp only [hvh]
        rfl
      have hcp : ∀ m sw, callPosition { cfg with vhStrategy := "zero" } (env i) m sw =
        callPosition { cfg with vhStrategy := "unmodified", clamp := none } (env i) m sw := fun _ _ => rfl
      unfold moveSwarm
      rw [hco, hvb, hvb']
      split
      · rfl
      · dsimp only
        rw [hcv]
        rfl
    unfold iterate
    split
    · rfl
    · next c hc =>
      dsimp only
      have hg : callGbest { cfg with vhStrategy := "zero" } (env i).oracle (recordEval c s).top
        (recordEval c s).swarm = callGbest { cfg with vhStrategy := "unmodified", clamp := none } (env i).oracle
          (recordEval c s).top (recordEval c s).swarm := rfl
      rw [hg]
      split
      · rfl
      · next t g hgg =>
        rw [hmv (recordBest t g (recordEval c s)) hs.1.position]
        rfl
  have hst : startState { cfg with vhStrategy := "zero" } nproc s =
    startState { cfg with vhStrategy := "unmodified", clamp := none } nproc s := rfl
  have hpr : prepare { cfg with vhStrategy := "zero" } s =
    prepare { cfg with vhStrategy := "unmodified", clamp := none } s := rfl
  unfold startState at hl
  unfold optimize
  rw [hpr] at hl ⊢
  dsimp only at hl ⊢
  rw [hl]

/-- Non-vacuity: the particle that violates bounds is stopped, the inside one keeps its velocity;
`adjust` reports the distance between two different positions. -/
example : Above Ex.box Ex.xs 0 ∧ ¬ Below Ex.box Ex.xs 2 ∧ ¬ Above Ex.box Ex.xs 2 ∧
    (match vhCall "zero" none (some (fun _ => -1, fun _ => 1)) ⟨some Ex.xs, some (some Ex.box), none⟩
        Ex.ms with
      | (_, .ok y) => decide (y 0 0 = 0 ∧ y 0 1 = 0 ∧ y 1 0 = 0 ∧ y 2 0 = 1 / 2)
      | _ => false) = true ∧
    (match vhCall "adjust" (vhCall "adjust" none none ⟨some Ex.xs, none, none⟩ Ex.ms).1
        (some (fun _ => -1, fun _ => 1)) ⟨some Ex.ms, none, none⟩ Ex.xs with
      | (_, .ok y) => decide (y 0 0 = -1 ∧ y 0 1 = 1 ∧ y 1 0 = 1 / 2)
      | _ => false) = true := by
  refine ⟨⟨0, by decide +kernel⟩, ?_, ?_, by decide +kernel, by decide +kernel⟩
  · rintro ⟨j, h⟩; revert j; decide +kernel
  · rintro ⟨j, h⟩; revert j; decide +kernel

end PySwarms
