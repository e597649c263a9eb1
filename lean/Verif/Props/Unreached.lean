import Verif.Props.Handlers
import Verif.Props.Bounds
import Verif.Props.Complement

/-!
# Bounds and clamps that are never reached (C131)
-/

set_option linter.unusedSectionVars false

namespace PySwarms

variable {n d : Nat} {K : Type} [Field K] [LinearOrder K] [IsStrictOrderedRing K] [Transc K]
  [FloorRing K]

/-! ### Simulation of a run that satisfies a condition after every iteration -/

theorem iterate_guard (cfg cfg' : Config n d K) (ev : Mat n d K → Except Err (Costs n K))
    (r : Draw n d K) (iters i : Nat) (q : List Bool) (R : Opt n d K → Opt n d K → Prop)
    (G : Opt n d K → Prop)
    (hpos : ∀ s s', R s s' → s'.swarm = s.swarm ∧ s'.top = s.top)
    (heval : ∀ s s' c, R s s' → R (recordEval c s) (recordEval c s'))
    (hbest : ∀ s s' t g, R s s' → R (recordBest t g s) (recordBest t g s'))
    (htop : ∀ s s' t, R s s' → R { s with top := t } { s' with top := t })
    (hk : cfg'.kind = cfg.kind) (ha : cfg'.args = cfg.args) (hw : cfg'.window = cfg.window)
    (hf : cfg'.ftol = cfg.ftol)
    (hm : ∀ s s', R s s' → G (moveSwarm cfg r iters i s).1 →
      R (moveSwarm cfg r iters i s).1 (moveSwarm cfg' r iters i s').1 ∧
      (moveSwarm cfg' r iters i s').2 = (moveSwarm cfg r iters i s).2)
    (s s' : Opt n d K) (h : R s s') (hG : G (iterate cfg ev r iters i q s).1) :
    R (iterate cfg ev r iters i q s).1 (iterate cfg' ev r iters i q s').1 ∧
      (iterate cfg' ev r iters i q s').2 = (iterate cfg ev r iters i q s).2 := by
  unfold iterate at hG ⊢
  rw [(hpos s s' h).1]
  revert hG
  cases ev s.swarm.position with
  | error e => intro _; exact ⟨h, rfl⟩
  | ok c =>
    dsimp only
    have h1 := heval s s' c h
    obtain ⟨p1, p2⟩ := hpos _ _ h1
    have hg : callGbest cfg' r.oracle (recordEval c s').top (recordEval c s').swarm =
        callGbest cfg r.oracle (recordEval c s).top (recordEval c s).swarm := by
      rw [p1, p2]
      unfold callGbest
      rw [hk, ha]
    rw [hg, p1, hw, hf]
    generalize callGbest cfg r.oracle (recordEval c s).top (recordEval c s).swarm = o
    obtain ⟨t, e | g⟩ := o
    · intro _
      refine ⟨?_, rfl⟩
      have h3 := htop _ _ t h1
      rw [p1] at h3
      exact h3
    · dsimp only
      have h2 := hbest _ _ t g h1
      rw [(hpos _ _ h2).1]
      split
      · intro _; exact ⟨h2, rfl⟩
      · intro hG
        have hm := hm _ _ h2 (by
          revert hG
          generalize moveSwarm cfg r iters i (recordBest t g (recordEval c s)) = o
          obtain ⟨s1, e | u⟩ := o <;> exact id)
        obtain ⟨h6, h7⟩ := hm
        revert h6 h7
        generalize moveSwarm cfg r iters i (recordBest t g (recordEval c s)) = o
        generalize moveSwarm cfg' r iters i (recordBest t g (recordEval c s')) = o'
        intro h6 h7
        obtain ⟨s1, o⟩ := o
        obtain ⟨s1', o'⟩ := o'
        simp only at h7
        subst h7
        cases o' with
        | error e => exact ⟨h6, rfl⟩
        | ok u => exact ⟨h6, rfl⟩

theorem loop_guard (cfg cfg' : Config n d K) (ev : Nat → Mat n d K → Except Err (Costs n K))
    (env : Nat → Draw n d K) (iters : Nat) (R : Opt n d K → Opt n d K → Prop)
    (G : Opt n d K → Prop)
    (h : ∀ i q s s', R s s' → G (iterate cfg (ev i) (env i) iters i q s).1 →
      R (iterate cfg (ev i) (env i) iters i q s).1 (iterate cfg' (ev i) (env i) iters i q s').1 ∧
      (iterate cfg' (ev i) (env i) iters i q s').2 = (iterate cfg (ev i) (env i) iters i q s).2)
    (l i : Nat) (q : List Bool) (s s' : Opt n d K) (hs : R s s')
    (hG : ∀ k, k < l → G (loop cfg ev env iters (k + 1) i q s).1) :
    R (loop cfg ev env iters l i q s).1 (loop cfg' ev env iters l i q s').1 ∧
      (loop cfg' ev env iters l i q s').2 = (loop cfg ev env iters l i q s).2 := by
  induction l generalizing i q s s' with
  | zero => exact ⟨hs, rfl⟩
  | succ l ih =>
    have h0 := h i q s s' hs (by
      have := hG 0 (Nat.succ_pos l)
      rw [loop] at this
      revert this
      generalize iterate cfg (ev i) (env i) iters i q s = o
      obtain ⟨s1, e | f⟩ := o
      · exact id
      · cases f <;> exact id)
    obtain ⟨h1, h2⟩ := h0
    have hG' : ∀ k, k < l → G (loop cfg ev env iters (k + 1 + 1) i q s).1 :=
      fun k hk' => hG (k + 1) (Nat.succ_lt_succ hk')
    rw [loop, loop]
    have hl : ∀ k, loop cfg ev env iters (k + 1 + 1) i q s =
        match iterate cfg (ev i) (env i) iters i q s with
        | (s', .error e) => (s', .error e)
        | (s', .ok .stop) => (s', .ok ())
        | (s', .ok (.continue q')) => loop cfg ev env iters (k + 1) (i + 1) q' s' := fun k => by
      rw [loop]
      rfl
    simp only [hl] at hG'
    revert h1 h2 hG'
    generalize iterate cfg (ev i) (env i) iters i q s = o
    generalize iterate cfg' (ev i) (env i) iters i q s' = o'
    intro h1 h2 hG'
    obtain ⟨s1, o⟩ := o
    obtain ⟨s1', o'⟩ := o'
    simp only at h2
    subst h2
    rcases o' with e | f
    · exact ⟨h1, rfl⟩
    · cases f with
      | stop => exact ⟨h1, rfl⟩
      | «continue» q' => exact ih (i + 1) q' s1 s1' h1 hG'

theorem optimize_guard (cfg cfg' : Config n d K) (ev : Nat → Mat n d K → Except Err (Costs n K))
    (iters : Nat) (nproc : Option Nat) (env : Nat → Draw n d K)
    (R : Opt n d K → Opt n d K → Prop) (G : Opt n d K → Prop)
    (hpos : ∀ s s', R s s' → s'.swarm = s.swarm ∧ s'.top = s.top)
    (hstart : ∀ s s', R s s' → R (startState cfg nproc s) (startState cfg' nproc s'))
    (hbad : ∀ s s', R s s' → R
      { s with bhMem := (prepare cfg s).bhMem, vhMem := (prepare cfg s).vhMem }
      { s' with bhMem := (prepare cfg' s').bhMem, vhMem := (prepare cfg' s').vhMem })
    (h : ∀ i q s s', R s s' → G (iterate cfg (ev i) (env i) iters i q s).1 →
      R (iterate cfg (ev i) (env i) iters i q s).1 (iterate cfg' (ev i) (env i) iters i q s').1 ∧
      (iterate cfg' (ev i) (env i) iters i q s').2 = (iterate cfg (ev i) (env i) iters i q s).2)
    (hend : ∀ s s', R s s' → R
      { s with openPools := s.openPools - (if nproc.isSome then 1 else 0) }
      { s' with openPools := s'.openPools - (if nproc.isSome then 1 else 0) })
    (s s' : Opt n d K) (hs : R s s')
    (hG : ∀ k, k < iters → G (loop cfg ev env iters (k + 1) 0 [] (startState cfg nproc s)).1) :
    R (optimize cfg ev iters nproc env s).1 (optimize cfg' ev iters nproc env s').1 ∧
      (optimize cfg' ev iters nproc env s').2 = (optimize cfg ev iters nproc env s).2 := by
  obtain ⟨h1, h2⟩ := loop_guard cfg cfg' ev env iters R G h iters 0 [] _ _ (hstart s s' hs) hG
  unfold startState at h1 h2
  unfold optimize
  split
  · exact ⟨hbad s s' hs, rfl⟩
  · dsimp only
    revert h1 h2
    generalize loop cfg ev env iters iters 0 [] { prepare cfg s with
      openPools := s.openPools + (if nproc.isSome then 1 else 0) } = o
    generalize loop cfg' ev env iters iters 0 [] { prepare cfg' s' with
      openPools := s'.openPools + (if nproc.isSome then 1 else 0) } = o'
    intro h1 h2
    obtain ⟨s1, o⟩ := o
    obtain ⟨s1', o'⟩ := o'
    simp only at h2 h1
    subst h2
    rcases o' with e | u
    · exact ⟨h1, rfl⟩
    · dsimp only
      have hf : finish s1' = finish s1 := by
        unfold finish
        rw [(hpos _ _ h1).1]
      rw [hf]
      cases finish s1 with
      | error e => exact ⟨h1, rfl⟩
      | ok r => exact ⟨hend _ _ h1, rfl⟩

/-! ### One step -/

theorem vhCall_ignores_bounds {st : String} (h1 : st ≠ "invert") (h2 : st ≠ "zero")
    (mem : Option (Mat n d K)) (c : Option (Clamp d K)) (p : Mat n d K)
    (b b' : Option (Bounds d K)) (v : Mat n d K) :
    vhCall st mem c { position := some p, bounds := some b } v =
      vhCall st mem c { position := some p, bounds := some b' } v := by
  unfold vhCall
  rw [if_neg h1, if_neg h2, if_neg h1, if_neg h2]
  rfl

theorem computeVelocity_ignores_bounds {st : String} (h1 : st ≠ "invert") (h2 : st ≠ "zero")
    (s : Swarm n d K) (c : Option (Clamp d K)) (mem : Option (Mat n d K))
    (b b' : Option (Bounds d K)) (r1 r2 : Mat n d K) :
    computeVelocity s c st mem b r1 r2 = computeVelocity s c st mem b' r1 r2 := by
  unfold computeVelocity
  split
  · rw [vhCall_ignores_bounds h1 h2 mem c s.position b b']
  · rfl

theorem moveSwarm_bounds {cfg : Config n d K} (hk : cfg.kind ≠ .binary) (hd : 0 < d)
    (hn : cfg.bounds = none)
    (hst : cfg.bhStrategy ∈ bhStrategies) (h1 : cfg.vhStrategy ≠ "invert")
    (h2 : cfg.vhStrategy ≠ "zero") (b : Bounds d K) (r : Draw n d K) (iters i : Nat)
    (s : Opt n d K) (mem : Option (Mat n d K))
    (hG : InBox b (moveSwarm cfg r iters i s).1.swarm.position) :
    ∃ mem', moveSwarm { cfg with bounds := some b } r iters i { s with bhMem := mem } =
      ({ (moveSwarm cfg r iters i s).1 with bhMem := mem' }, (moveSwarm cfg r iters i s).2) := by
  have p1 : ∀ me sw, callPosition cfg r me sw =
      (me, .ok fun i j => sw.position i j + sw.velocity i j) := by
    intro me sw
    unfold callPosition computePosition
    rw [hn]
    split
    · next hk' => exact absurd hk' hk
    · rfl
  have p2 : ∀ me sw, callPosition { cfg with bounds := some b } r me sw =
      bhCall cfg.bhStrategy me b r.bh fun i j => sw.position i j + sw.velocity i j := by
    intro me sw
    unfold callPosition computePosition
    split
    · next hk' => exact absurd hk' hk
    · rfl
  unfold moveSwarm at hG ⊢
  have ho : callOptions { cfg with bounds := some b } iters i r s.swarm =
    callOptions cfg iters i r s.swarm := rfl
  dsimp only at hG ⊢
  rw [ho]
  revert hG
  cases callOptions cfg iters i r s.swarm with
  | error e => intro _; exact ⟨mem, rfl⟩
  | ok o =>
    dsimp only
    rw [computeVelocity_ignores_bounds h1 h2 _ _ _ (velBounds { cfg with bounds := some b })
      (velBounds cfg)]
    generalize computeVelocity { s.swarm with options := o } cfg.clamp cfg.vhStrategy s.vhMem
      (velBounds cfg) r.r1 r.r2 = q
    obtain ⟨vm, e | v⟩ := q
    · intro _; exact ⟨mem, rfl⟩
    · dsimp only
      rw [p1, p2]
      dsimp only
      intro hG
      have hid := C15_identity cfg.bhStrategy hst hd mem b r.bh _ hG
      revert hid
      generalize bhCall cfg.bhStrategy mem b r.bh _ = z
      obtain ⟨bm, z⟩ := z
      intro hid
      simp only at hid
      subst hid
      exact ⟨bm, rfl⟩

theorem clampOpt_within {c : Clamp d K} {v : Mat n d K}
    (h : ∀ i j, c.1 j ≤ v i j ∧ v i j ≤ c.2 j) : clampOpt (some c) v = v := by
  funext i j
  have := h i j
  simp only [clampOpt, applyClamp, decide_eq_true_eq, ge_iff_le]
  split
  · next h => exact le_antisymm h this.2
  · split
    · next h => exact le_antisymm this.1 h
    · rfl

theorem vhCall_clamp (st : String) (mem : Option (Mat n d K)) (c : Clamp d K) (kw : VHKw n d K)
    (v : Mat n d K) (h : ∀ v', (vhCall st mem none kw v).2 = .ok v' →
      ∀ i j, c.1 j ≤ v' i j ∧ v' i j ≤ c.2 j) :
    vhCall st mem (some c) kw v = vhCall st mem none kw v := by
  unfold vhCall at h ⊢
  split
  · next hs =>
    rw [if_pos hs] at h
    have := clampOpt_within (h v rfl)
    unfold vhUnmodified
    rw [this]
    rfl
  · next hs1 =>
    rw [if_neg hs1] at h
    split
    · next hs =>
      rw [if_pos hs] at h
      unfold vhAdjust at h ⊢
      cases hp : kw.position with
      | none => rfl
      | some p =>
        rw [hp] at h
        cases mem with
        | none => rfl
        | some y =>
          have := clampOpt_within (h _ rfl)
          dsimp only at this ⊢
          rw [show (clampOpt (some c) fun i j => p i j - y i j) = fun i j => p i j - y i j from this]
          rfl
    · next hs2 =>
      rw [if_neg hs2] at h
      split
      · next hs =>
        rw [if_pos hs] at h
        unfold vhInvert at h ⊢
        dsimp only at h ⊢
        cases hp : kw.position with
        | none => rfl
        | some p =>
          rw [hp] at h
          cases hb : kw.bounds with
          | none => rfl
          | some b =>
            rw [hb] at h
            cases b with
            | none => rfl
            | some b =>
              have := clampOpt_within (h _ rfl)
              exact congrArg (fun x => (mem, Except.ok x)) this
      · rfl

theorem vhCall_clamp_shape (st : String) (mem : Option (Mat n d K)) (c : Option (Clamp d K))
    (kw : VHKw n d K) (v : Mat n d K) :
    (vhCall st mem c kw v).1 = (vhCall st mem none kw v).1 ∧
      (vhCall st mem c kw v).2.map (fun _ => ()) = (vhCall st mem none kw v).2.map fun _ => () := by
  unfold vhCall
  split
  · exact ⟨rfl, rfl⟩
  · split
    · unfold vhAdjust
      cases kw.position with
      | none => exact ⟨rfl, rfl⟩
      | some p => cases mem <;> exact ⟨rfl, rfl⟩
    · split
      · refine ⟨rfl, ?_⟩
        unfold vhInvert
        dsimp only
        cases kw.position with
        | none => rfl
        | some p =>
          cases kw.bounds with
          | none => rfl
          | some b => cases b <;> rfl
      · exact ⟨rfl, rfl⟩

theorem computeVelocity_clamp (s : Swarm n d K) (st : String) (mem : Option (Mat n d K))
    (c : Clamp d K) (b : Option (Bounds d K)) (r1 r2 : Mat n d K)
    (h : ∀ v', (computeVelocity s none st mem b r1 r2).2 = .ok v' →
      ∀ i j, c.1 j ≤ v' i j ∧ v' i j ≤ c.2 j) :
    computeVelocity s (some c) st mem b r1 r2 = computeVelocity s none st mem b r1 r2 := by
  unfold computeVelocity at h ⊢
  split
  · next c1 c2 w e1 e2 e3 =>
    rw [e1, e2, e3] at h
    dsimp only at h ⊢
    cases hb : s.bestPos with
    | empty =>
      rw [hb] at h
      dsimp only at h ⊢
      split
      · next h0 => rw [if_pos h0] at h; exact vhCall_clamp _ _ _ _ _ h
      · next h0 =>
        rw [if_neg h0] at h
        split
        · next h0 =>
          rw [if_pos h0] at h
          split
          · next h0 => rw [if_pos h0] at h; exact vhCall_clamp _ _ _ _ _ h
          · have := vhCall_clamp_shape st mem (some c)
              { position := some s.position, bounds := some b } (tempVelocity c1 c2 w r1 r2 s)
            revert this
            generalize vhCall st mem (some c) { position := some s.position, bounds := some b }
              (tempVelocity c1 c2 w r1 r2 s) = q
            generalize vhCall st mem none { position := some s.position, bounds := some b }
              (tempVelocity c1 c2 w r1 r2 s) = q'
            obtain ⟨a, e | u⟩ := q <;> obtain ⟨a', e' | u'⟩ := q' <;> rintro ⟨g1, g2⟩ <;>
              simp_all [Except.map]
        · rfl
    | single v => rw [hb] at h; exact vhCall_clamp _ _ _ _ _ h
    | perParticle m => rw [hb] at h; exact vhCall_clamp _ _ _ _ _ h
  · rfl

theorem moveSwarm_clamp {cfg : Config n d K} (hn : cfg.clamp = none) (c : Clamp d K)
    (r : Draw n d K) (iters i : Nat) (s : Opt n d K)
    (hG : ∀ a j, c.1 j ≤ (moveSwarm cfg r iters i s).1.swarm.velocity a j ∧
      (moveSwarm cfg r iters i s).1.swarm.velocity a j ≤ c.2 j) :
    moveSwarm { cfg with clamp := some c } r iters i s = moveSwarm cfg r iters i s := by
  have hp : ∀ me sw, callPosition { cfg with clamp := some c } r me sw = callPosition cfg r me sw :=
    fun _ _ => rfl
  unfold moveSwarm at hG ⊢
  rw [show callOptions { cfg with clamp := some c } iters i r s.swarm =
    callOptions cfg iters i r s.swarm from rfl]
  revert hG
  cases callOptions cfg iters i r s.swarm with
  | error e => intro _; rfl
  | ok o =>
    dsimp only
    simp only [hp]
    rw [hn, show velBounds { cfg with clamp := some c } = velBounds cfg from rfl]
    intro hG
    rw [computeVelocity_clamp]
    intro v' hv
    revert hG
    generalize computeVelocity { s.swarm with options := o } none cfg.vhStrategy s.vhMem
      (velBounds cfg) r.r1 r.r2 = q at hv
    obtain ⟨vm, q⟩ := q
    simp only at hv
    subst hv
    dsimp only
    generalize callPosition cfg r s.bhMem _ = z
    obtain ⟨bm, e | p⟩ := z <;> exact id

/-! ### C131 -/

/-- **C131** (bounds).  If no position computed by a run without bounds lies outside a box, then the
same call on the optimizer with this box as `bounds`, with any boundary strategy, is the same run: same
evaluations, histories, exceptions and result.  (Only the memory of the boundary handler may differ;
`invert` and `zero` cannot be used without bounds.) -/
theorem C131_bounds (cfg : Config n d K) (b : Bounds d K) (hd : 0 < d) (hk : cfg.kind ≠ .binary)
    (hn : cfg.bounds = none)
    (hst : cfg.bhStrategy ∈ ["nearest", "reflective", "shrink", "random", "intermediate", "periodic"])
    (hv : cfg.vhStrategy ≠ "invert" ∧ cfg.vhStrategy ≠ "zero")
    (ev : Nat → Mat n d K → Except Err (Costs n K)) (iters : Nat) (nproc : Option Nat)
    (env : Nat → Draw n d K) (s : Opt n d K) (mem : Option (Mat n d K))
    (hin : ∀ k, k < iters → ∀ i j,
      b.1 j ≤ (swarmAfter cfg ev iters nproc env s (k + 1)).position i j ∧
      (swarmAfter cfg ev iters nproc env s (k + 1)).position i j ≤ b.2 j) :
    ∃ mem', optimize { cfg with bounds := some b } ev iters nproc env { s with bhMem := mem } =
      ({ (optimize cfg ev iters nproc env s).1 with bhMem := mem' },
       (optimize cfg ev iters nproc env s).2) := by
  have key := optimize_guard cfg { cfg with bounds := some b } ev iters nproc env
    (fun s s' => ∃ m, s' = { s with bhMem := m }) (fun s => InBox b s.swarm.position)
    (by rintro s _ ⟨m, rfl⟩; exact ⟨rfl, rfl⟩)
    (by rintro s _ ⟨m, rfl⟩; exact ⟨_, rfl⟩)
    (by rintro s _ ⟨m, rfl⟩; exact ⟨_, rfl⟩)
    (fun i q s s' h hG => iterate_guard cfg { cfg with bounds := some b } (ev i) (env i) iters i q
      (fun s s' => ∃ m, s' = { s with bhMem := m }) (fun s => InBox b s.swarm.position)
      (by rintro s _ ⟨m, rfl⟩; exact ⟨rfl, rfl⟩)
      (by rintro s _ c ⟨m, rfl⟩; exact ⟨_, rfl⟩)
      (by rintro s _ t g ⟨m, rfl⟩; exact ⟨_, rfl⟩)
      (by rintro s _ t ⟨m, rfl⟩; exact ⟨_, rfl⟩)
      rfl rfl rfl rfl
      (by
        rintro s _ ⟨m, rfl⟩ hG
        obtain ⟨m', h⟩ := moveSwarm_bounds hk hd hn hst hv.1 hv.2 b (env i) iters i s m hG
        rw [h]
        exact ⟨⟨m', rfl⟩, rfl⟩)
      s s' h hG)
    (by rintro s _ ⟨m, rfl⟩; exact ⟨_, rfl⟩)
    s { s with bhMem := mem } ⟨mem, rfl⟩ hin
  obtain ⟨⟨m', h1⟩, h2⟩ := key
  exact ⟨m', Prod.ext h1 h2⟩

/-- **C131** (clamp).  If no velocity computed by a run without clamp lies outside an interval per
coordinate, then the same call on the optimizer with these intervals as `velocity_clamp` is the same
run, down to the last field of the optimizer. -/
theorem C131_clamp (cfg : Config n d K) (c : Clamp d K) (hn : cfg.clamp = none)
    (ev : Nat → Mat n d K → Except Err (Costs n K)) (iters : Nat) (nproc : Option Nat)
    (env : Nat → Draw n d K) (s : Opt n d K)
    (hin : ∀ k, k < iters → ∀ i j,
      c.1 j ≤ (swarmAfter cfg ev iters nproc env s (k + 1)).velocity i j ∧
      (swarmAfter cfg ev iters nproc env s (k + 1)).velocity i j ≤ c.2 j) :
    optimize { cfg with clamp := some c } ev iters nproc env s =
      optimize cfg ev iters nproc env s := by
  have key := optimize_guard cfg { cfg with clamp := some c } ev iters nproc env
    (fun s s' => s' = s) (fun s => ∀ i j, c.1 j ≤ s.swarm.velocity i j ∧ s.swarm.velocity i j ≤ c.2 j)
    (by rintro s _ rfl; exact ⟨rfl, rfl⟩)
    (by rintro s _ rfl; rfl)
    (by rintro s _ rfl; rfl)
    (fun i q s s' h hG => iterate_guard cfg { cfg with clamp := some c } (ev i) (env i) iters i q
      (fun s s' => s' = s)
      (fun s => ∀ i j, c.1 j ≤ s.swarm.velocity i j ∧ s.swarm.velocity i j ≤ c.2 j)
      (by rintro s _ rfl; exact ⟨rfl, rfl⟩)
      (by rintro s _ c rfl; rfl)
      (by rintro s _ t g rfl; rfl)
      (by rintro s _ t rfl; rfl)
      rfl rfl rfl rfl
      (by
        rintro s _ rfl hG
        rw [moveSwarm_clamp hn c (env i) iters i _ hG]
        exact ⟨rfl, rfl⟩)
      s s' h hG)
    (by rintro s _ rfl; rfl)
    s s rfl hin
  exact Prod.ext key.1 key.2

/-- **C131** (start).  Given `init_pos` inside the box, constructing the optimizer with these bounds
gives the same swarm as constructing it without bounds. -/
theorem C131_start (cfg : Config n d K) (b : Bounds d K) (hk : cfg.kind ≠ .binary)
    (hn : cfg.bounds = none)
    (p : Mat n d K) (hi : cfg.initPos = some p) (hp : ∀ i j, b.1 j ≤ p i j ∧ p i j ≤ b.2 j)
    (r1 r2 : InitDraw n d K) :
    construct { cfg with bounds := some b } r1 r2 = construct cfg r1 r2 := by
  have h : ∀ r, resetSwarm { cfg with bounds := some b } r = resetSwarm cfg r := by
    intro r
    have hb : cfg.isBinary = false := by
      unfold Config.isBinary
      split
      · next hk' => exact absurd hk' hk
      · rfl
    unfold resetSwarm createSwarm
    rw [show ({ cfg with bounds := some b } : Config n d K).isBinary = cfg.isBinary from rfl, hb]
    dsimp only
    simp only [Bool.false_eq_true, if_false]
    rw [hn, hi]
    unfold generateSwarm
    dsimp only
    rw [if_pos]
    simp only [Bool.and_eq_true, List.all_eq_true, List.mem_finRange, forall_true_left,
      decide_eq_true_eq]
    exact ⟨fun i j => (hp i j).1, fun i j => (hp i j).2⟩
  unfold construct
  rw [h, h]

/-- Non-vacuity of C131: three iterations of a GlobalBestPSO of two particles move, and stay inside the
box `[-10, 10]²` and the clamp `(-5, 5)`. -/
example : (match construct (Ex.gcfg 2 2) (Ex.init 2 2) (Ex.init 2 2) with
    | .ok s => decide ((∀ k : Fin 3, ∀ i j,
        (-10 : ℚ) ≤ (swarmAfter (Ex.gcfg 2 2) (Ex.sphere 2 2) 3 none (fun _ => Ex.draw 2 2) s
            (k + 1)).position i j ∧
        (swarmAfter (Ex.gcfg 2 2) (Ex.sphere 2 2) 3 none (fun _ => Ex.draw 2 2) s
            (k + 1)).position i j ≤ 10 ∧
        (-5 : ℚ) ≤ (swarmAfter (Ex.gcfg 2 2) (Ex.sphere 2 2) 3 none (fun _ => Ex.draw 2 2) s
            (k + 1)).velocity i j ∧
        (swarmAfter (Ex.gcfg 2 2) (Ex.sphere 2 2) 3 none (fun _ => Ex.draw 2 2) s
            (k + 1)).velocity i j ≤ 5) ∧
        (swarmAfter (Ex.gcfg 2 2) (Ex.sphere 2 2) 3 none (fun _ => Ex.draw 2 2) s 3).position 0 0 ≠
          s.swarm.position 0 0)
    | .error _ => false) = true := by decide +kernel

example : (Ex.gcfg 2 2).bounds = none ∧ (Ex.gcfg 2 2).clamp = none ∧ (Ex.gcfg 2 2).kind ≠ .binary ∧
    (Ex.gcfg 2 2).bhStrategy ∈
      ["nearest", "reflective", "shrink", "random", "intermediate", "periodic"] ∧
    (Ex.gcfg 2 2).vhStrategy ≠ "invert" ∧ (Ex.gcfg 2 2).vhStrategy ≠ "zero" :=
  ⟨rfl, rfl, by simp [Ex.gcfg], by decide, by decide, by decide⟩

end PySwarms
