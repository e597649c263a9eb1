import Verif.Props.Unreached

/-!
# Bounds and clamps that were never touched (C131, seen from the run with the limits)
-/

set_option linter.unusedSectionVars false

namespace PySwarms

variable {n d : Nat} {K : Type} [Field K] [LinearOrder K] [IsStrictOrderedRing K] [Transc K]
  [FloorRing K]

theorem moveSwarm_nearest {cfg : Config n d K} (hk : cfg.kind ≠ .binary) {b : Bounds d K}
    (hb : cfg.bounds = some b) (hst : cfg.bhStrategy = "nearest")
    (h1 : cfg.vhStrategy ≠ "invert") (h2 : cfg.vhStrategy ≠ "zero") (r : Draw n d K)
    (iters i : Nat) (s : Opt n d K)
    (hG : ∀ a j, b.1 j < (moveSwarm cfg r iters i s).1.swarm.position a j ∧
      (moveSwarm cfg r iters i s).1.swarm.position a j < b.2 j) :
    moveSwarm { cfg with bounds := none } r iters i s = moveSwarm cfg r iters i s := by
  have p1 : ∀ me sw, callPosition { cfg with bounds := none } r me sw =
      (me, .ok fun i j => sw.position i j + sw.velocity i j) := by
    intro me sw
    unfold callPosition computePosition
    split
    · next hk' => exact absurd hk' hk
    · rfl
  have p2 : ∀ me sw, callPosition cfg r me sw =
      (me, .ok (bhNearest b fun i j => sw.position i j + sw.velocity i j)) := by
    intro me sw
    unfold callPosition computePosition
    rw [hb, hst]
    split
    · next hk' => exact absurd hk' hk
    · rfl
  unfold moveSwarm at hG ⊢
  have ho : callOptions { cfg with bounds := none } iters i r s.swarm =
    callOptions cfg iters i r s.swarm := rfl
  dsimp only at hG ⊢
  rw [ho]
  revert hG
  cases callOptions cfg iters i r s.swarm with
  | error e => intro _; rfl
  | ok o =>
    dsimp only
    rw [computeVelocity_ignores_bounds h1 h2 _ _ _ (velBounds { cfg with bounds := none })
      (velBounds cfg)]
    generalize computeVelocity { s.swarm with options := o } cfg.clamp cfg.vhStrategy s.vhMem
      (velBounds cfg) r.r1 r.r2 = q
    obtain ⟨vm, e | v⟩ := q
    · intro _; rfl
    · dsimp only
      rw [p1, p2]
      dsimp only
      intro hG
      have : (bhNearest b fun i j => s.swarm.position i j + v i j) =
          fun i j => s.swarm.position i j + v i j := by
        funext a j
        have := hG a j
        revert this
        rw [bhNearest_apply]
        split
        · rintro ⟨-, h⟩; exact absurd h (lt_irrefl _)
        · split
          · rintro ⟨h, -⟩; exact absurd h (lt_irrefl _)
          · intro _; rfl
      rw [this]

theorem clampOpt_strict {c : Clamp d K} {v : Mat n d K}
    (h : ∀ i j, c.1 j < clampOpt (some c) v i j ∧ clampOpt (some c) v i j < c.2 j) :
    clampOpt (some c) v = v := by
  funext i j
  have := h i j
  revert this
  simp only [clampOpt, applyClamp, decide_eq_true_eq, ge_iff_le]
  split
  · rintro ⟨-, h⟩; exact absurd h (lt_irrefl _)
  · split
    · rintro ⟨h, -⟩; exact absurd h (lt_irrefl _)
    · intro _; rfl

theorem vhCall_unclamp (st : String) (mem : Option (Mat n d K)) (c : Clamp d K) (kw : VHKw n d K)
    (v : Mat n d K) (h : ∀ v', (vhCall st mem (some c) kw v).2 = .ok v' →
      ∀ i j, c.1 j < v' i j ∧ v' i j < c.2 j) :
    vhCall st mem none kw v = vhCall st mem (some c) kw v := by
  unfold vhCall at h ⊢
  split
  · next hs =>
    rw [if_pos hs] at h
    have := clampOpt_strict (h _ rfl)
    unfold vhUnmodified
    rw [this]
    rfl
  · next hs1 =>
    rw [if_neg hs1] at h
    split
    · next hs =>
      rw [if_pos hs] at h
      unfold vhAdjust at h ⊢
      cases hp : kw.position with
      | none => rfl
      | some p =>
        rw [hp] at h
        cases mem with
        | none => rfl
        | some y =>
          have := clampOpt_strict (h _ rfl)
          dsimp only at this ⊢
          rw [this]
          rfl
    · next hs2 =>
      rw [if_neg hs2] at h
      split
      · next hs =>
        rw [if_pos hs] at h
        unfold vhInvert at h ⊢
        dsimp only at h ⊢
        cases hp : kw.position with
        | none => rfl
        | some p =>
          rw [hp] at h
          cases hb : kw.bounds with
          | none => rfl
          | some b =>
            rw [hb] at h
            cases b with
            | none => rfl
            | some b =>
              have := clampOpt_strict (h _ rfl)
              exact (congrArg (fun x => (mem, Except.ok x)) this).symm
      · rfl

theorem computeVelocity_unclamp (s : Swarm n d K) (st : String) (mem : Option (Mat n d K))
    (c : Clamp d K) (b : Option (Bounds d K)) (r1 r2 : Mat n d K)
    (h : ∀ v', (computeVelocity s (some c) st mem b r1 r2).2 = .ok v' →
      ∀ i j, c.1 j < v' i j ∧ v' i j < c.2 j) :
    computeVelocity s none st mem b r1 r2 = computeVelocity s (some c) st mem b r1 r2 := by
  unfold computeVelocity at h ⊢
  split
  · next c1 c2 w e1 e2 e3 =>
    rw [e1, e2, e3] at h
    dsimp only at h ⊢
    cases hb : s.bestPos with
    | empty =>
      rw [hb] at h
      dsimp only at h ⊢
      split
      · next h0 => rw [if_pos h0] at h; exact vhCall_unclamp _ _ _ _ _ h
      · next h0 =>
        rw [if_neg h0] at h
        split
        · next h0 =>
          rw [if_pos h0] at h
          split
          · next h0 => rw [if_pos h0] at h; exact vhCall_unclamp _ _ _ _ _ h
          · have := vhCall_clamp_shape st mem (some c)
              { position := some s.position, bounds := some b } (tempVelocity c1 c2 w r1 r2 s)
            revert this
            generalize vhCall st mem (some c) { position := some s.position, bounds := some b }
              (tempVelocity c1 c2 w r1 r2 s) = q
            generalize vhCall st mem none { position := some s.position, bounds := some b }
              (tempVelocity c1 c2 w r1 r2 s) = q'
            obtain ⟨a, e | u⟩ := q <;> obtain ⟨a', e' | u'⟩ := q' <;> rintro ⟨g1, g2⟩ <;>
              simp_all [Except.map]
        · rfl
    | single v => rw [hb] at h; exact vhCall_unclamp _ _ _ _ _ h
    | perParticle m => rw [hb] at h; exact vhCall_unclamp _ _ _ _ _ h
  · rfl

theorem moveSwarm_unclamp {cfg : Config n d K} {c : Clamp d K} (hn : cfg.clamp = some c)
    (r : Draw n d K) (iters i : Nat) (s : Opt n d K)
    (hG : ∀ a j, c.1 j < (moveSwarm cfg r iters i s).1.swarm.velocity a j ∧
      (moveSwarm cfg r iters i s).1.swarm.velocity a j < c.2 j) :
    moveSwarm { cfg with clamp := none } r iters i s = moveSwarm cfg r iters i s := by
  have hp : ∀ me sw, callPosition { cfg with clamp := none } r me sw = callPosition cfg r me sw :=
    fun _ _ => rfl
  unfold moveSwarm at hG ⊢
  rw [show callOptions { cfg with clamp := none } iters i r s.swarm =
    callOptions cfg iters i r s.swarm from rfl]
  revert hG
  cases callOptions cfg iters i r s.swarm with
  | error e => intro _; rfl
  | ok o =>
    dsimp only
    simp only [hp]
    rw [hn, show velBounds { cfg with clamp := none } = velBounds cfg from rfl]
    intro hG
    rw [computeVelocity_unclamp]
    intro v' hv
    revert hG
    generalize computeVelocity { s.swarm with options := o } (some c) cfg.vhStrategy s.vhMem
      (velBounds cfg) r.r1 r.r2 = q at hv
    obtain ⟨vm, q⟩ := q
    simp only at hv
    subst hv
    dsimp only
    generalize callPosition cfg r s.bhMem _ = z
    obtain ⟨bm, e | p⟩ := z <;> exact id

/-! ### C131 -/

theorem optimize_guard_eq (cfg cfg' : Config n d K)
    (ev : Nat → Mat n d K → Except Err (Costs n K)) (iters : Nat) (nproc : Option Nat)
    (env : Nat → Draw n d K) (G : Opt n d K → Prop) (hk : cfg'.kind = cfg.kind)
    (ha : cfg'.args = cfg.args) (hw : cfg'.window = cfg.window) (hf : cfg'.ftol = cfg.ftol)
    (hm : ∀ i s, G (moveSwarm cfg (env i) iters i s).1 →
      moveSwarm cfg' (env i) iters i s = moveSwarm cfg (env i) iters i s)
    (s : Opt n d K)
    (hin : ∀ k, k < iters → G (loop cfg ev env iters (k + 1) 0 [] (startState cfg nproc s)).1) :
    optimize cfg' ev iters nproc env s = optimize cfg ev iters nproc env s := by
  have hprep : ∀ s, prepare cfg' s = prepare cfg s := by
    intro s
    unfold prepare
    rw [hk]
  have key := optimize_guard cfg cfg' ev iters nproc env (fun s s' => s' = s) G
    (by rintro s _ rfl; exact ⟨rfl, rfl⟩)
    (by rintro s _ rfl; unfold startState; rw [hprep])
    (by rintro s _ rfl; rw [hprep])
    (fun i q s s' h hG => iterate_guard cfg cfg' (ev i) (env i) iters i q (fun s s' => s' = s) G
      (by rintro s _ rfl; exact ⟨rfl, rfl⟩)
      (by rintro s _ c rfl; rfl)
      (by rintro s _ t g rfl; rfl)
      (by rintro s _ t rfl; rfl)
      hk ha hw hf
      (by
        rintro s _ rfl hG
        rw [hm i _ hG]
        exact ⟨rfl, rfl⟩)
      s s' h hG)
    (by rintro s _ rfl; rfl)
    s s rfl hin
  exact Prod.ext key.1 key.2

/-- **C131** (bounds, seen from the bounded run).  With the strategy `nearest`: if every position a run
moved to lies strictly between the bounds, the bounds played no role – the same call without bounds
is the same run.  (With the other strategies a particle that has left is put back strictly inside, so
that the positions do not tell.) -/
theorem C131_nearest_untouched (cfg : Config n d K) (hk : cfg.kind ≠ .binary) (b : Bounds d K)
    (hb : cfg.bounds = some b) (hst : cfg.bhStrategy = "nearest")
    (hv : cfg.vhStrategy ≠ "invert" ∧ cfg.vhStrategy ≠ "zero")
    (ev : Nat → Mat n d K → Except Err (Costs n K)) (iters : Nat) (nproc : Option Nat)
    (env : Nat → Draw n d K) (s : Opt n d K)
    (hin : ∀ k, k < iters → ∀ i j,
      b.1 j < (swarmAfter cfg ev iters nproc env s (k + 1)).position i j ∧
      (swarmAfter cfg ev iters nproc env s (k + 1)).position i j < b.2 j) :
    optimize { cfg with bounds := none } ev iters nproc env s =
      optimize cfg ev iters nproc env s :=
  optimize_guard_eq cfg { cfg with bounds := none } ev iters nproc env
    (fun s => ∀ i j, b.1 j < s.swarm.position i j ∧ s.swarm.position i j < b.2 j) rfl rfl rfl rfl
    (fun i s hG => moveSwarm_nearest hk hb hst hv.1 hv.2 (env i) iters i s hG) s hin

/-- **C131** (clamp, seen from the clamped run).  If every velocity of a run lies strictly inside the
clamp, the clamp played no role in it, under every velocity strategy. -/
theorem C131_clamp_untouched (cfg : Config n d K) (c : Clamp d K) (hc : cfg.clamp = some c)
    (ev : Nat → Mat n d K → Except Err (Costs n K)) (iters : Nat) (nproc : Option Nat)
    (env : Nat → Draw n d K) (s : Opt n d K)
    (hin : ∀ k, k < iters → ∀ i j,
      c.1 j < (swarmAfter cfg ev iters nproc env s (k + 1)).velocity i j ∧
      (swarmAfter cfg ev iters nproc env s (k + 1)).velocity i j < c.2 j) :
    optimize { cfg with clamp := none } ev iters nproc env s =
      optimize cfg ev iters nproc env s :=
  optimize_guard_eq cfg { cfg with clamp := none } ev iters nproc env
    (fun s => ∀ i j, c.1 j < s.swarm.velocity i j ∧ s.swarm.velocity i j < c.2 j) rfl rfl rfl rfl
    (fun i s hG => moveSwarm_unclamp hc (env i) iters i s hG) s hin

/-- A run with bounds `[-10, 10]²` and clamp `(-5, 5)`. -/
def Ex.roomy : Config 2 2 ℚ :=
  { Ex.gcfg 2 2 with
    bounds := some (fun _ => -10, fun _ => 10)
    clamp := some (fun _ => -5, fun _ => 5)
    center := fun _ => 1 / 2
    bhStrategy := "nearest" }

/-- Non-vacuity: this run touches neither the bounds nor the clamp, and moves. -/
example : (match construct Ex.roomy (Ex.init 2 2) (Ex.init 2 2) with
    | .ok s => decide ((∀ k : Fin 3, ∀ i j,
        (-10 : ℚ) < (swarmAfter Ex.roomy (Ex.sphere 2 2) 3 none (fun _ => Ex.draw 2 2) s
            (k + 1)).position i j ∧
        (swarmAfter Ex.roomy (Ex.sphere 2 2) 3 none (fun _ => Ex.draw 2 2) s
            (k + 1)).position i j < 10 ∧
        (-5 : ℚ) < (swarmAfter Ex.roomy (Ex.sphere 2 2) 3 none (fun _ => Ex.draw 2 2) s
            (k + 1)).velocity i j ∧
        (swarmAfter Ex.roomy (Ex.sphere 2 2) 3 none (fun _ => Ex.draw 2 2) s
            (k + 1)).velocity i j < 5) ∧
        (swarmAfter Ex.roomy (Ex.sphere 2 2) 3 none (fun _ => Ex.draw 2 2) s 3).position 0 0 ≠
          s.swarm.position 0 0)
    | .error _ => false) = true := by decide +kernel

/-- A run with bounds `[-1, 1/50]²` and the default strategy. -/
def Ex.wrapping : Config 2 2 ℚ :=
  { Ex.gcfg 2 2 with
    bounds := some (fun _ => -1, fun _ => 1 / 50)
    center := fun _ => 1 / 2
    bhStrategy := "periodic" }

/-- **C131** (the strategy matters).  With the default strategy `periodic` positions strictly inside
the bounds do not show that the bounds played no role: here all of them are, and without the bounds
the second particle ends elsewhere. -/
theorem C131_periodic_wraps_unseen :
    ∃ s : Opt 2 2 ℚ, construct Ex.wrapping (Ex.init 2 2) (Ex.init 2 2) = .ok s ∧
      (∀ k : Fin 3, ∀ i j,
        (-1 : ℚ) < (swarmAfter Ex.wrapping (Ex.sphere 2 2) 3 none (fun _ => Ex.draw 2 2) s
            (k + 1)).position i j ∧
        (swarmAfter Ex.wrapping (Ex.sphere 2 2) 3 none (fun _ => Ex.draw 2 2) s
            (k + 1)).position i j < 1 / 50) ∧
      (optimize Ex.wrapping (Ex.sphere 2 2) 3 none (fun _ => Ex.draw 2 2) s).1.swarm.position 1 0 ≠
      (optimize { Ex.wrapping with bounds := none } (Ex.sphere 2 2) 3 none (fun _ => Ex.draw 2 2)
        s).1.swarm.position 1 0 := by
  have h : (match construct Ex.wrapping (Ex.init 2 2) (Ex.init 2 2) with
    | .ok s => decide ((∀ k : Fin 3, ∀ i j,
        (-1 : ℚ) < (swarmAfter Ex.wrapping (Ex.sphere 2 2) 3 none (fun _ => Ex.draw 2 2) s
            (k + 1)).position i j ∧
        (swarmAfter Ex.wrapping (Ex.sphere 2 2) 3 none (fun _ => Ex.draw 2 2) s
            (k + 1)).position i j < 1 / 50) ∧
      (optimize Ex.wrapping (Ex.sphere 2 2) 3 none (fun _ => Ex.draw 2 2) s).1.swarm.position 1 0 ≠
      (optimize { Ex.wrapping with bounds := none } (Ex.sphere 2 2) 3 none (fun _ => Ex.draw 2 2)
        s).1.swarm.position 1 0)
    | .error _ => false) = true := by decide +kernel
  revert h
  cases hs : construct Ex.wrapping (Ex.init 2 2) (Ex.init 2 2) with
  | error e => intro h; exact absurd h (by simp)
  | ok s => intro h; exact ⟨s, rfl, of_decide_eq_true h⟩

end PySwarms
